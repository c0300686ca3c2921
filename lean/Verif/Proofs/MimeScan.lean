import Verif.Proofs.MimeHeader

/-!
# The header of a message: one round of the loop over the fields, for each name

Generated from a table of the names.
-/

set_option linter.unusedSimpArgs false

namespace Mairix
open Spec

theorem makeNvp_field {n f v : Text} {es : Nvp} (hn : lower n = n) (hf : FieldIs n f v) (hv : Params v [] es) : makeNvp f n = .ok (some es) := by
  obtain ⟨p, rfl, hp⟩ := hf
  exact C52_parse_partial n p v es (by rw [hn, hp]) hv

theorem drop_name {n f v : Text} (hf : FieldIs n f v) : f.drop n.length = v := by
  obtain ⟨p, rfl, rfl⟩ := hf
  rw [List.drop_left' (by simp [lower])]

theorem scan_to {mktime : Nat → Nat → Nat → Int} {st st' : HeaderScan} {x : Text} {fs : List Text} (hx : HasName (bs "to:") x) (h : Walks mktime st (x :: fs) st') :
    ∃ st1, scanLine mktime st x = .ok st1 ∧ Walks mktime st1 fs st' := by
  have hs : bs "to:" ∈ scanNames := by decide
  have ho := other_name hs hx
  have q : hasPrefixCase (bs "to:") x = true := (hasPrefix_iff (by decide)).2 hx
  have n_cc := ho (bs "cc:") (by decide) (by decide)
  have q_cc := no_prefix (by decide) n_cc
  have n_from := ho (bs "from:") (by decide) (by decide)
  have q_from := no_prefix (by decide) n_from
  have n_subject := ho (bs "subject:") (by decide) (by decide)
  have q_subject := no_prefix (by decide) n_subject
  have n_content_type := ho (bs "content-type:") (by decide) (by decide)
  have q_content_type := no_prefix (by decide) n_content_type
  have n_content_transfer_encoding := ho (bs "content-transfer-encoding:") (by decide) (by decide)
  have q_content_transfer_encoding := no_prefix (by decide) n_content_transfer_encoding
  have n_content_disposition := ho (bs "content-disposition:") (by decide) (by decide)
  have q_content_disposition := no_prefix (by decide) n_content_disposition
  have n_date := ho (bs "date:") (by decide) (by decide)
  have q_date := no_prefix (by decide) n_date
  have n_message_id := ho (bs "message-id:") (by decide) (by decide)
  have q_message_id := no_prefix (by decide) n_message_id
  have n_in_reply_to := ho (bs "in-reply-to:") (by decide) (by decide)
  have q_in_reply_to := no_prefix (by decide) n_in_reply_to
  have n_references := ho (bs "references:") (by decide) (by decide)
  have q_references := no_prefix (by decide) n_references
  have n_status := ho (bs "status:") (by decide) (by decide)
  have q_status := no_prefix (by decide) n_status
  have n_x_status := ho (bs "x-status:") (by decide) (by decide)
  have q_x_status := no_prefix (by decide) n_x_status
  have hw := h.to
  cases hw with
  | skip hn _ => exact absurd hx hn
  | @take _ _ v x' _ _ hf hv hw =>
    have e := copy_value (by decide) hf hv
    have e' : copyOrConcat st.hdrs.to x = .ok (some (match st.hdrs.to with | none => x' | some p => p ++ bs ", " ++ x')) := by
      unfold copyOrConcat
      rw [e]
      cases st.hdrs.to <;> rfl
    simp only [scanLine, scanRest, q, q_cc, q_from, q_subject, q_content_type, q_content_transfer_encoding, q_content_disposition, q_date, q_message_id, q_in_reply_to, q_references, q_status, q_x_status, firstNvp_other q_content_type, firstNvp_other q_content_transfer_encoding, firstNvp_other q_content_disposition, bind, Except.bind, Bool.false_eq_true, and_false, if_false, and_true, if_true, e']
    exact ⟨_, rfl, ⟨hw, walkAll_skip n_cc h.cc, walkFirst_skip (.inl n_from) h.«from», walkFirst_skip (.inl n_subject) h.subject, walkFirst_skip (.inl n_message_id) h.messageId, walkFirst_skip (.inl n_in_reply_to) h.inReplyTo, walkFirst_skip (.inl n_references) h.references, walkDate_skip (.inl n_date) h.date, by rw [h.seen, status_skip n_status n_x_status], by rw [h.replied, status_skip n_status n_x_status], by rw [h.flagged, status_skip n_status n_x_status], walkNvp_skip n_content_type h.ct, walkNvp_skip n_content_transfer_encoding h.cte, walkNvp_skip n_content_disposition h.cd⟩⟩

theorem scan_cc {mktime : Nat → Nat → Nat → Int} {st st' : HeaderScan} {x : Text} {fs : List Text} (hx : HasName (bs "cc:") x) (h : Walks mktime st (x :: fs) st') :
    ∃ st1, scanLine mktime st x = .ok st1 ∧ Walks mktime st1 fs st' := by
  have hs : bs "cc:" ∈ scanNames := by decide
  have ho := other_name hs hx
  have q : hasPrefixCase (bs "cc:") x = true := (hasPrefix_iff (by decide)).2 hx
  have n_to := ho (bs "to:") (by decide) (by decide)
  have q_to := no_prefix (by decide) n_to
  have n_from := ho (bs "from:") (by decide) (by decide)
  have q_from := no_prefix (by decide) n_from
  have n_subject := ho (bs "subject:") (by decide) (by decide)
  have q_subject := no_prefix (by decide) n_subject
  have n_content_type := ho (bs "content-type:") (by decide) (by decide)
  have q_content_type := no_prefix (by decide) n_content_type
  have n_content_transfer_encoding := ho (bs "content-transfer-encoding:") (by decide) (by decide)
  have q_content_transfer_encoding := no_prefix (by decide) n_content_transfer_encoding
  have n_content_disposition := ho (bs "content-disposition:") (by decide) (by decide)
  have q_content_disposition := no_prefix (by decide) n_content_disposition
  have n_date := ho (bs "date:") (by decide) (by decide)
  have q_date := no_prefix (by decide) n_date
  have n_message_id := ho (bs "message-id:") (by decide) (by decide)
  have q_message_id := no_prefix (by decide) n_message_id
  have n_in_reply_to := ho (bs "in-reply-to:") (by decide) (by decide)
  have q_in_reply_to := no_prefix (by decide) n_in_reply_to
  have n_references := ho (bs "references:") (by decide) (by decide)
  have q_references := no_prefix (by decide) n_references
  have n_status := ho (bs "status:") (by decide) (by decide)
  have q_status := no_prefix (by decide) n_status
  have n_x_status := ho (bs "x-status:") (by decide) (by decide)
  have q_x_status := no_prefix (by decide) n_x_status
  have hw := h.cc
  cases hw with
  | skip hn _ => exact absurd hx hn
  | @take _ _ v x' _ _ hf hv hw =>
    have e := copy_value (by decide) hf hv
    have e' : copyOrConcat st.hdrs.cc x = .ok (some (match st.hdrs.cc with | none => x' | some p => p ++ bs ", " ++ x')) := by
      unfold copyOrConcat
      rw [e]
      cases st.hdrs.cc <;> rfl
    simp only [scanLine, scanRest, q, q_to, q_from, q_subject, q_content_type, q_content_transfer_encoding, q_content_disposition, q_date, q_message_id, q_in_reply_to, q_references, q_status, q_x_status, firstNvp_other q_content_type, firstNvp_other q_content_transfer_encoding, firstNvp_other q_content_disposition, bind, Except.bind, Bool.false_eq_true, and_false, if_false, and_true, if_true, e']
    exact ⟨_, rfl, ⟨walkAll_skip n_to h.to, hw, walkFirst_skip (.inl n_from) h.«from», walkFirst_skip (.inl n_subject) h.subject, walkFirst_skip (.inl n_message_id) h.messageId, walkFirst_skip (.inl n_in_reply_to) h.inReplyTo, walkFirst_skip (.inl n_references) h.references, walkDate_skip (.inl n_date) h.date, by rw [h.seen, status_skip n_status n_x_status], by rw [h.replied, status_skip n_status n_x_status], by rw [h.flagged, status_skip n_status n_x_status], walkNvp_skip n_content_type h.ct, walkNvp_skip n_content_transfer_encoding h.cte, walkNvp_skip n_content_disposition h.cd⟩⟩

theorem scan_from {mktime : Nat → Nat → Nat → Int} {st st' : HeaderScan} {x : Text} {fs : List Text} (hx : HasName (bs "from:") x) (h : Walks mktime st (x :: fs) st') :
    ∃ st1, scanLine mktime st x = .ok st1 ∧ Walks mktime st1 fs st' := by
  have hs : bs "from:" ∈ scanNames := by decide
  have ho := other_name hs hx
  have q : hasPrefixCase (bs "from:") x = true := (hasPrefix_iff (by decide)).2 hx
  have n_to := ho (bs "to:") (by decide) (by decide)
  have q_to := no_prefix (by decide) n_to
  have n_cc := ho (bs "cc:") (by decide) (by decide)
  have q_cc := no_prefix (by decide) n_cc
  have n_subject := ho (bs "subject:") (by decide) (by decide)
  have q_subject := no_prefix (by decide) n_subject
  have n_content_type := ho (bs "content-type:") (by decide) (by decide)
  have q_content_type := no_prefix (by decide) n_content_type
  have n_content_transfer_encoding := ho (bs "content-transfer-encoding:") (by decide) (by decide)
  have q_content_transfer_encoding := no_prefix (by decide) n_content_transfer_encoding
  have n_content_disposition := ho (bs "content-disposition:") (by decide) (by decide)
  have q_content_disposition := no_prefix (by decide) n_content_disposition
  have n_date := ho (bs "date:") (by decide) (by decide)
  have q_date := no_prefix (by decide) n_date
  have n_message_id := ho (bs "message-id:") (by decide) (by decide)
  have q_message_id := no_prefix (by decide) n_message_id
  have n_in_reply_to := ho (bs "in-reply-to:") (by decide) (by decide)
  have q_in_reply_to := no_prefix (by decide) n_in_reply_to
  have n_references := ho (bs "references:") (by decide) (by decide)
  have q_references := no_prefix (by decide) n_references
  have n_status := ho (bs "status:") (by decide) (by decide)
  have q_status := no_prefix (by decide) n_status
  have n_x_status := ho (bs "x-status:") (by decide) (by decide)
  have q_x_status := no_prefix (by decide) n_x_status
  have hw := h.«from»
  by_cases ho : st.hdrs.«from» = none
  · rw [ho] at hw
    cases hw with
    | skip hn _ => exact absurd hx (hn.resolve_right (by simp))
    | take hf hv hw =>
      have e := copy_value (by decide) hf hv
      simp only [scanLine, scanRest, q, q_to, q_cc, q_subject, q_content_type, q_content_transfer_encoding, q_content_disposition, q_date, q_message_id, q_in_reply_to, q_references, q_status, q_x_status, firstNvp_other q_content_type, firstNvp_other q_content_transfer_encoding, firstNvp_other q_content_disposition, bind, Except.bind, Bool.false_eq_true, and_false, if_false, and_true, if_true, ho, e]
      exact ⟨_, rfl, ⟨walkAll_skip n_to h.to, walkAll_skip n_cc h.cc, hw, walkFirst_skip (.inl n_subject) h.subject, walkFirst_skip (.inl n_message_id) h.messageId, walkFirst_skip (.inl n_in_reply_to) h.inReplyTo, walkFirst_skip (.inl n_references) h.references, walkDate_skip (.inl n_date) h.date, by rw [h.seen, status_skip n_status n_x_status], by rw [h.replied, status_skip n_status n_x_status], by rw [h.flagged, status_skip n_status n_x_status], walkNvp_skip n_content_type h.ct, walkNvp_skip n_content_transfer_encoding h.cte, walkNvp_skip n_content_disposition h.cd⟩⟩
  · simp only [scanLine, scanRest, q, q_to, q_cc, q_subject, q_content_type, q_content_transfer_encoding, q_content_disposition, q_date, q_message_id, q_in_reply_to, q_references, q_status, q_x_status, firstNvp_other q_content_type, firstNvp_other q_content_transfer_encoding, firstNvp_other q_content_disposition, bind, Except.bind, Bool.false_eq_true, and_false, if_false, and_true, if_true, ho]
    exact ⟨_, rfl, ⟨walkAll_skip n_to h.to, walkAll_skip n_cc h.cc, walkFirst_skip (.inr ho) hw, walkFirst_skip (.inl n_subject) h.subject, walkFirst_skip (.inl n_message_id) h.messageId, walkFirst_skip (.inl n_in_reply_to) h.inReplyTo, walkFirst_skip (.inl n_references) h.references, walkDate_skip (.inl n_date) h.date, by rw [h.seen, status_skip n_status n_x_status], by rw [h.replied, status_skip n_status n_x_status], by rw [h.flagged, status_skip n_status n_x_status], walkNvp_skip n_content_type h.ct, walkNvp_skip n_content_transfer_encoding h.cte, walkNvp_skip n_content_disposition h.cd⟩⟩

theorem scan_subject {mktime : Nat → Nat → Nat → Int} {st st' : HeaderScan} {x : Text} {fs : List Text} (hx : HasName (bs "subject:") x) (h : Walks mktime st (x :: fs) st') :
    ∃ st1, scanLine mktime st x = .ok st1 ∧ Walks mktime st1 fs st' := by
  have hs : bs "subject:" ∈ scanNames := by decide
  have ho := other_name hs hx
  have q : hasPrefixCase (bs "subject:") x = true := (hasPrefix_iff (by decide)).2 hx
  have n_to := ho (bs "to:") (by decide) (by decide)
  have q_to := no_prefix (by decide) n_to
  have n_cc := ho (bs "cc:") (by decide) (by decide)
  have q_cc := no_prefix (by decide) n_cc
  have n_from := ho (bs "from:") (by decide) (by decide)
  have q_from := no_prefix (by decide) n_from
  have n_content_type := ho (bs "content-type:") (by decide) (by decide)
  have q_content_type := no_prefix (by decide) n_content_type
  have n_content_transfer_encoding := ho (bs "content-transfer-encoding:") (by decide) (by decide)
  have q_content_transfer_encoding := no_prefix (by decide) n_content_transfer_encoding
  have n_content_disposition := ho (bs "content-disposition:") (by decide) (by decide)
  have q_content_disposition := no_prefix (by decide) n_content_disposition
  have n_date := ho (bs "date:") (by decide) (by decide)
  have q_date := no_prefix (by decide) n_date
  have n_message_id := ho (bs "message-id:") (by decide) (by decide)
  have q_message_id := no_prefix (by decide) n_message_id
  have n_in_reply_to := ho (bs "in-reply-to:") (by decide) (by decide)
  have q_in_reply_to := no_prefix (by decide) n_in_reply_to
  have n_references := ho (bs "references:") (by decide) (by decide)
  have q_references := no_prefix (by decide) n_references
  have n_status := ho (bs "status:") (by decide) (by decide)
  have q_status := no_prefix (by decide) n_status
  have n_x_status := ho (bs "x-status:") (by decide) (by decide)
  have q_x_status := no_prefix (by decide) n_x_status
  have hw := h.subject
  by_cases ho : st.hdrs.subject = none
  · rw [ho] at hw
    cases hw with
    | skip hn _ => exact absurd hx (hn.resolve_right (by simp))
    | take hf hv hw =>
      have e := copy_value (by decide) hf hv
      simp only [scanLine, scanRest, q, q_to, q_cc, q_from, q_content_type, q_content_transfer_encoding, q_content_disposition, q_date, q_message_id, q_in_reply_to, q_references, q_status, q_x_status, firstNvp_other q_content_type, firstNvp_other q_content_transfer_encoding, firstNvp_other q_content_disposition, bind, Except.bind, Bool.false_eq_true, and_false, if_false, and_true, if_true, ho, e]
      exact ⟨_, rfl, ⟨walkAll_skip n_to h.to, walkAll_skip n_cc h.cc, walkFirst_skip (.inl n_from) h.«from», hw, walkFirst_skip (.inl n_message_id) h.messageId, walkFirst_skip (.inl n_in_reply_to) h.inReplyTo, walkFirst_skip (.inl n_references) h.references, walkDate_skip (.inl n_date) h.date, by rw [h.seen, status_skip n_status n_x_status], by rw [h.replied, status_skip n_status n_x_status], by rw [h.flagged, status_skip n_status n_x_status], walkNvp_skip n_content_type h.ct, walkNvp_skip n_content_transfer_encoding h.cte, walkNvp_skip n_content_disposition h.cd⟩⟩
  · simp only [scanLine, scanRest, q, q_to, q_cc, q_from, q_content_type, q_content_transfer_encoding, q_content_disposition, q_date, q_message_id, q_in_reply_to, q_references, q_status, q_x_status, firstNvp_other q_content_type, firstNvp_other q_content_transfer_encoding, firstNvp_other q_content_disposition, bind, Except.bind, Bool.false_eq_true, and_false, if_false, and_true, if_true, ho]
    exact ⟨_, rfl, ⟨walkAll_skip n_to h.to, walkAll_skip n_cc h.cc, walkFirst_skip (.inl n_from) h.«from», walkFirst_skip (.inr ho) hw, walkFirst_skip (.inl n_message_id) h.messageId, walkFirst_skip (.inl n_in_reply_to) h.inReplyTo, walkFirst_skip (.inl n_references) h.references, walkDate_skip (.inl n_date) h.date, by rw [h.seen, status_skip n_status n_x_status], by rw [h.replied, status_skip n_status n_x_status], by rw [h.flagged, status_skip n_status n_x_status], walkNvp_skip n_content_type h.ct, walkNvp_skip n_content_transfer_encoding h.cte, walkNvp_skip n_content_disposition h.cd⟩⟩

theorem scan_content_type {mktime : Nat → Nat → Nat → Int} {st st' : HeaderScan} {x : Text} {fs : List Text} (hx : HasName (bs "content-type:") x) (h : Walks mktime st (x :: fs) st') :
    ∃ st1, scanLine mktime st x = .ok st1 ∧ Walks mktime st1 fs st' := by
  have hs : bs "content-type:" ∈ scanNames := by decide
  have ho := other_name hs hx
  have q : hasPrefixCase (bs "content-type:") x = true := (hasPrefix_iff (by decide)).2 hx
  have n_to := ho (bs "to:") (by decide) (by decide)
  have q_to := no_prefix (by decide) n_to
  have n_cc := ho (bs "cc:") (by decide) (by decide)
  have q_cc := no_prefix (by decide) n_cc
  have n_from := ho (bs "from:") (by decide) (by decide)
  have q_from := no_prefix (by decide) n_from
  have n_subject := ho (bs "subject:") (by decide) (by decide)
  have q_subject := no_prefix (by decide) n_subject
  have n_content_transfer_encoding := ho (bs "content-transfer-encoding:") (by decide) (by decide)
  have q_content_transfer_encoding := no_prefix (by decide) n_content_transfer_encoding
  have n_content_disposition := ho (bs "content-disposition:") (by decide) (by decide)
  have q_content_disposition := no_prefix (by decide) n_content_disposition
  have n_date := ho (bs "date:") (by decide) (by decide)
  have q_date := no_prefix (by decide) n_date
  have n_message_id := ho (bs "message-id:") (by decide) (by decide)
  have q_message_id := no_prefix (by decide) n_message_id
  have n_in_reply_to := ho (bs "in-reply-to:") (by decide) (by decide)
  have q_in_reply_to := no_prefix (by decide) n_in_reply_to
  have n_references := ho (bs "references:") (by decide) (by decide)
  have q_references := no_prefix (by decide) n_references
  have n_status := ho (bs "status:") (by decide) (by decide)
  have q_status := no_prefix (by decide) n_status
  have n_x_status := ho (bs "x-status:") (by decide) (by decide)
  have q_x_status := no_prefix (by decide) n_x_status
  have hw := h.ct
  obtain ⟨o, eo⟩ : ∃ o, o = st.ct := ⟨_, rfl⟩
  rw [← eo] at hw
  cases hw with
  | skip hn _ => exact absurd hx hn
  | @take _ v es _ _ hf hv hw =>
    have e : firstNvp st.ct x (bs "content-type:") = .ok (some es) := by
      rw [← eo]; exact makeNvp_field (by decide) hf hv
    simp only [scanLine, scanRest, q, q_to, q_cc, q_from, q_subject, q_content_transfer_encoding, q_content_disposition, q_date, q_message_id, q_in_reply_to, q_references, q_status, q_x_status, firstNvp_other q_content_transfer_encoding, firstNvp_other q_content_disposition, bind, Except.bind, Bool.false_eq_true, and_false, if_false, and_true, if_true, e]
    exact ⟨_, rfl, ⟨walkAll_skip n_to h.to, walkAll_skip n_cc h.cc, walkFirst_skip (.inl n_from) h.«from», walkFirst_skip (.inl n_subject) h.subject, walkFirst_skip (.inl n_message_id) h.messageId, walkFirst_skip (.inl n_in_reply_to) h.inReplyTo, walkFirst_skip (.inl n_references) h.references, walkDate_skip (.inl n_date) h.date, by rw [h.seen, status_skip n_status n_x_status], by rw [h.replied, status_skip n_status n_x_status], by rw [h.flagged, status_skip n_status n_x_status], hw, walkNvp_skip n_content_transfer_encoding h.cte, walkNvp_skip n_content_disposition h.cd⟩⟩

theorem scan_content_transfer_encoding {mktime : Nat → Nat → Nat → Int} {st st' : HeaderScan} {x : Text} {fs : List Text} (hx : HasName (bs "content-transfer-encoding:") x) (h : Walks mktime st (x :: fs) st') :
    ∃ st1, scanLine mktime st x = .ok st1 ∧ Walks mktime st1 fs st' := by
  have hs : bs "content-transfer-encoding:" ∈ scanNames := by decide
  have ho := other_name hs hx
  have q : hasPrefixCase (bs "content-transfer-encoding:") x = true := (hasPrefix_iff (by decide)).2 hx
  have n_to := ho (bs "to:") (by decide) (by decide)
  have q_to := no_prefix (by decide) n_to
  have n_cc := ho (bs "cc:") (by decide) (by decide)
  have q_cc := no_prefix (by decide) n_cc
  have n_from := ho (bs "from:") (by decide) (by decide)
  have q_from := no_prefix (by decide) n_from
  have n_subject := ho (bs "subject:") (by decide) (by decide)
  have q_subject := no_prefix (by decide) n_subject
  have n_content_type := ho (bs "content-type:") (by decide) (by decide)
  have q_content_type := no_prefix (by decide) n_content_type
  have n_content_disposition := ho (bs "content-disposition:") (by decide) (by decide)
  have q_content_disposition := no_prefix (by decide) n_content_disposition
  have n_date := ho (bs "date:") (by decide) (by decide)
  have q_date := no_prefix (by decide) n_date
  have n_message_id := ho (bs "message-id:") (by decide) (by decide)
  have q_message_id := no_prefix (by decide) n_message_id
  have n_in_reply_to := ho (bs "in-reply-to:") (by decide) (by decide)
  have q_in_reply_to := no_prefix (by decide) n_in_reply_to
  have n_references := ho (bs "references:") (by decide) (by decide)
  have q_references := no_prefix (by decide) n_references
  have n_status := ho (bs "status:") (by decide) (by decide)
  have q_status := no_prefix (by decide) n_status
  have n_x_status := ho (bs "x-status:") (by decide) (by decide)
  have q_x_status := no_prefix (by decide) n_x_status
  have hw := h.cte
  obtain ⟨o, eo⟩ : ∃ o, o = st.cte := ⟨_, rfl⟩
  rw [← eo] at hw
  cases hw with
  | skip hn _ => exact absurd hx hn
  | @take _ v es _ _ hf hv hw =>
    have e : firstNvp st.cte x (bs "content-transfer-encoding:") = .ok (some es) := by
      rw [← eo]; exact makeNvp_field (by decide) hf hv
    simp only [scanLine, scanRest, q, q_to, q_cc, q_from, q_subject, q_content_type, q_content_disposition, q_date, q_message_id, q_in_reply_to, q_references, q_status, q_x_status, firstNvp_other q_content_type, firstNvp_other q_content_disposition, bind, Except.bind, Bool.false_eq_true, and_false, if_false, and_true, if_true, e]
    exact ⟨_, rfl, ⟨walkAll_skip n_to h.to, walkAll_skip n_cc h.cc, walkFirst_skip (.inl n_from) h.«from», walkFirst_skip (.inl n_subject) h.subject, walkFirst_skip (.inl n_message_id) h.messageId, walkFirst_skip (.inl n_in_reply_to) h.inReplyTo, walkFirst_skip (.inl n_references) h.references, walkDate_skip (.inl n_date) h.date, by rw [h.seen, status_skip n_status n_x_status], by rw [h.replied, status_skip n_status n_x_status], by rw [h.flagged, status_skip n_status n_x_status], walkNvp_skip n_content_type h.ct, hw, walkNvp_skip n_content_disposition h.cd⟩⟩

theorem scan_content_disposition {mktime : Nat → Nat → Nat → Int} {st st' : HeaderScan} {x : Text} {fs : List Text} (hx : HasName (bs "content-disposition:") x) (h : Walks mktime st (x :: fs) st') :
    ∃ st1, scanLine mktime st x = .ok st1 ∧ Walks mktime st1 fs st' := by
  have hs : bs "content-disposition:" ∈ scanNames := by decide
  have ho := other_name hs hx
  have q : hasPrefixCase (bs "content-disposition:") x = true := (hasPrefix_iff (by decide)).2 hx
  have n_to := ho (bs "to:") (by decide) (by decide)
  have q_to := no_prefix (by decide) n_to
  have n_cc := ho (bs "cc:") (by decide) (by decide)
  have q_cc := no_prefix (by decide) n_cc
  have n_from := ho (bs "from:") (by decide) (by decide)
  have q_from := no_prefix (by decide) n_from
  have n_subject := ho (bs "subject:") (by decide) (by decide)
  have q_subject := no_prefix (by decide) n_subject
  have n_content_type := ho (bs "content-type:") (by decide) (by decide)
  have q_content_type := no_prefix (by decide) n_content_type
  have n_content_transfer_encoding := ho (bs "content-transfer-encoding:") (by decide) (by decide)
  have q_content_transfer_encoding := no_prefix (by decide) n_content_transfer_encoding
  have n_date := ho (bs "date:") (by decide) (by decide)
  have q_date := no_prefix (by decide) n_date
  have n_message_id := ho (bs "message-id:") (by decide) (by decide)
  have q_message_id := no_prefix (by decide) n_message_id
  have n_in_reply_to := ho (bs "in-reply-to:") (by decide) (by decide)
  have q_in_reply_to := no_prefix (by decide) n_in_reply_to
  have n_references := ho (bs "references:") (by decide) (by decide)
  have q_references := no_prefix (by decide) n_references
  have n_status := ho (bs "status:") (by decide) (by decide)
  have q_status := no_prefix (by decide) n_status
  have n_x_status := ho (bs "x-status:") (by decide) (by decide)
  have q_x_status := no_prefix (by decide) n_x_status
  have hw := h.cd
  obtain ⟨o, eo⟩ : ∃ o, o = st.cd := ⟨_, rfl⟩
  rw [← eo] at hw
  cases hw with
  | skip hn _ => exact absurd hx hn
  | @take _ v es _ _ hf hv hw =>
    have e : firstNvp st.cd x (bs "content-disposition:") = .ok (some es) := by
      rw [← eo]; exact makeNvp_field (by decide) hf hv
    simp only [scanLine, scanRest, q, q_to, q_cc, q_from, q_subject, q_content_type, q_content_transfer_encoding, q_date, q_message_id, q_in_reply_to, q_references, q_status, q_x_status, firstNvp_other q_content_type, firstNvp_other q_content_transfer_encoding, bind, Except.bind, Bool.false_eq_true, and_false, if_false, and_true, if_true, e]
    exact ⟨_, rfl, ⟨walkAll_skip n_to h.to, walkAll_skip n_cc h.cc, walkFirst_skip (.inl n_from) h.«from», walkFirst_skip (.inl n_subject) h.subject, walkFirst_skip (.inl n_message_id) h.messageId, walkFirst_skip (.inl n_in_reply_to) h.inReplyTo, walkFirst_skip (.inl n_references) h.references, walkDate_skip (.inl n_date) h.date, by rw [h.seen, status_skip n_status n_x_status], by rw [h.replied, status_skip n_status n_x_status], by rw [h.flagged, status_skip n_status n_x_status], walkNvp_skip n_content_type h.ct, walkNvp_skip n_content_transfer_encoding h.cte, hw⟩⟩

theorem scan_date {mktime : Nat → Nat → Nat → Int} {st st' : HeaderScan} {x : Text} {fs : List Text} (hx : HasName (bs "date:") x) (h : Walks mktime st (x :: fs) st') :
    ∃ st1, scanLine mktime st x = .ok st1 ∧ Walks mktime st1 fs st' := by
  have hs : bs "date:" ∈ scanNames := by decide
  have ho := other_name hs hx
  have q : hasPrefixCase (bs "date:") x = true := (hasPrefix_iff (by decide)).2 hx
  have n_to := ho (bs "to:") (by decide) (by decide)
  have q_to := no_prefix (by decide) n_to
  have n_cc := ho (bs "cc:") (by decide) (by decide)
  have q_cc := no_prefix (by decide) n_cc
  have n_from := ho (bs "from:") (by decide) (by decide)
  have q_from := no_prefix (by decide) n_from
  have n_subject := ho (bs "subject:") (by decide) (by decide)
  have q_subject := no_prefix (by decide) n_subject
  have n_content_type := ho (bs "content-type:") (by decide) (by decide)
  have q_content_type := no_prefix (by decide) n_content_type
  have n_content_transfer_encoding := ho (bs "content-transfer-encoding:") (by decide) (by decide)
  have q_content_transfer_encoding := no_prefix (by decide) n_content_transfer_encoding
  have n_content_disposition := ho (bs "content-disposition:") (by decide) (by decide)
  have q_content_disposition := no_prefix (by decide) n_content_disposition
  have n_message_id := ho (bs "message-id:") (by decide) (by decide)
  have q_message_id := no_prefix (by decide) n_message_id
  have n_in_reply_to := ho (bs "in-reply-to:") (by decide) (by decide)
  have q_in_reply_to := no_prefix (by decide) n_in_reply_to
  have n_references := ho (bs "references:") (by decide) (by decide)
  have q_references := no_prefix (by decide) n_references
  have n_status := ho (bs "status:") (by decide) (by decide)
  have q_status := no_prefix (by decide) n_status
  have n_x_status := ho (bs "x-status:") (by decide) (by decide)
  have q_x_status := no_prefix (by decide) n_x_status
  have hw := h.date
  by_cases ho : st.hdrs.date = 0
  · rw [ho] at hw
    cases hw with
    | skip hn _ => exact absurd hx (hn.resolve_right (by simp))
    | take hf hv hd hw =>
      have e := copy_value (by decide) hf hv
      have e' := C53_means hd
      simp only [scanLine, scanRest, q, q_to, q_cc, q_from, q_subject, q_content_type, q_content_transfer_encoding, q_content_disposition, q_message_id, q_in_reply_to, q_references, q_status, q_x_status, firstNvp_other q_content_type, firstNvp_other q_content_transfer_encoding, firstNvp_other q_content_disposition, bind, Except.bind, Bool.false_eq_true, and_false, if_false, and_true, if_true, ho, e, e']
      exact ⟨_, rfl, ⟨walkAll_skip n_to h.to, walkAll_skip n_cc h.cc, walkFirst_skip (.inl n_from) h.«from», walkFirst_skip (.inl n_subject) h.subject, walkFirst_skip (.inl n_message_id) h.messageId, walkFirst_skip (.inl n_in_reply_to) h.inReplyTo, walkFirst_skip (.inl n_references) h.references, hw, by rw [h.seen, status_skip n_status n_x_status], by rw [h.replied, status_skip n_status n_x_status], by rw [h.flagged, status_skip n_status n_x_status], walkNvp_skip n_content_type h.ct, walkNvp_skip n_content_transfer_encoding h.cte, walkNvp_skip n_content_disposition h.cd⟩⟩
  · simp only [scanLine, scanRest, q, q_to, q_cc, q_from, q_subject, q_content_type, q_content_transfer_encoding, q_content_disposition, q_message_id, q_in_reply_to, q_references, q_status, q_x_status, firstNvp_other q_content_type, firstNvp_other q_content_transfer_encoding, firstNvp_other q_content_disposition, bind, Except.bind, Bool.false_eq_true, and_false, if_false, and_true, if_true, ho]
    exact ⟨_, rfl, ⟨walkAll_skip n_to h.to, walkAll_skip n_cc h.cc, walkFirst_skip (.inl n_from) h.«from», walkFirst_skip (.inl n_subject) h.subject, walkFirst_skip (.inl n_message_id) h.messageId, walkFirst_skip (.inl n_in_reply_to) h.inReplyTo, walkFirst_skip (.inl n_references) h.references, walkDate_skip (.inr ho) hw, by rw [h.seen, status_skip n_status n_x_status], by rw [h.replied, status_skip n_status n_x_status], by rw [h.flagged, status_skip n_status n_x_status], walkNvp_skip n_content_type h.ct, walkNvp_skip n_content_transfer_encoding h.cte, walkNvp_skip n_content_disposition h.cd⟩⟩

theorem scan_message_id {mktime : Nat → Nat → Nat → Int} {st st' : HeaderScan} {x : Text} {fs : List Text} (hx : HasName (bs "message-id:") x) (h : Walks mktime st (x :: fs) st') :
    ∃ st1, scanLine mktime st x = .ok st1 ∧ Walks mktime st1 fs st' := by
  have hs : bs "message-id:" ∈ scanNames := by decide
  have ho := other_name hs hx
  have q : hasPrefixCase (bs "message-id:") x = true := (hasPrefix_iff (by decide)).2 hx
  have n_to := ho (bs "to:") (by decide) (by decide)
  have q_to := no_prefix (by decide) n_to
  have n_cc := ho (bs "cc:") (by decide) (by decide)
  have q_cc := no_prefix (by decide) n_cc
  have n_from := ho (bs "from:") (by decide) (by decide)
  have q_from := no_prefix (by decide) n_from
  have n_subject := ho (bs "subject:") (by decide) (by decide)
  have q_subject := no_prefix (by decide) n_subject
  have n_content_type := ho (bs "content-type:") (by decide) (by decide)
  have q_content_type := no_prefix (by decide) n_content_type
  have n_content_transfer_encoding := ho (bs "content-transfer-encoding:") (by decide) (by decide)
  have q_content_transfer_encoding := no_prefix (by decide) n_content_transfer_encoding
  have n_content_disposition := ho (bs "content-disposition:") (by decide) (by decide)
  have q_content_disposition := no_prefix (by decide) n_content_disposition
  have n_date := ho (bs "date:") (by decide) (by decide)
  have q_date := no_prefix (by decide) n_date
  have n_in_reply_to := ho (bs "in-reply-to:") (by decide) (by decide)
  have q_in_reply_to := no_prefix (by decide) n_in_reply_to
  have n_references := ho (bs "references:") (by decide) (by decide)
  have q_references := no_prefix (by decide) n_references
  have n_status := ho (bs "status:") (by decide) (by decide)
  have q_status := no_prefix (by decide) n_status
  have n_x_status := ho (bs "x-status:") (by decide) (by decide)
  have q_x_status := no_prefix (by decide) n_x_status
  have hw := h.messageId
  by_cases ho : st.hdrs.messageId = none
  · rw [ho] at hw
    cases hw with
    | skip hn _ => exact absurd hx (hn.resolve_right (by simp))
    | take hf hv hw =>
      have e := copy_value (by decide) hf hv
      simp only [scanLine, scanRest, q, q_to, q_cc, q_from, q_subject, q_content_type, q_content_transfer_encoding, q_content_disposition, q_date, q_in_reply_to, q_references, q_status, q_x_status, firstNvp_other q_content_type, firstNvp_other q_content_transfer_encoding, firstNvp_other q_content_disposition, bind, Except.bind, Bool.false_eq_true, and_false, if_false, and_true, if_true, ho, e]
      exact ⟨_, rfl, ⟨walkAll_skip n_to h.to, walkAll_skip n_cc h.cc, walkFirst_skip (.inl n_from) h.«from», walkFirst_skip (.inl n_subject) h.subject, hw, walkFirst_skip (.inl n_in_reply_to) h.inReplyTo, walkFirst_skip (.inl n_references) h.references, walkDate_skip (.inl n_date) h.date, by rw [h.seen, status_skip n_status n_x_status], by rw [h.replied, status_skip n_status n_x_status], by rw [h.flagged, status_skip n_status n_x_status], walkNvp_skip n_content_type h.ct, walkNvp_skip n_content_transfer_encoding h.cte, walkNvp_skip n_content_disposition h.cd⟩⟩
  · simp only [scanLine, scanRest, q, q_to, q_cc, q_from, q_subject, q_content_type, q_content_transfer_encoding, q_content_disposition, q_date, q_in_reply_to, q_references, q_status, q_x_status, firstNvp_other q_content_type, firstNvp_other q_content_transfer_encoding, firstNvp_other q_content_disposition, bind, Except.bind, Bool.false_eq_true, and_false, if_false, and_true, if_true, ho]
    exact ⟨_, rfl, ⟨walkAll_skip n_to h.to, walkAll_skip n_cc h.cc, walkFirst_skip (.inl n_from) h.«from», walkFirst_skip (.inl n_subject) h.subject, walkFirst_skip (.inr ho) hw, walkFirst_skip (.inl n_in_reply_to) h.inReplyTo, walkFirst_skip (.inl n_references) h.references, walkDate_skip (.inl n_date) h.date, by rw [h.seen, status_skip n_status n_x_status], by rw [h.replied, status_skip n_status n_x_status], by rw [h.flagged, status_skip n_status n_x_status], walkNvp_skip n_content_type h.ct, walkNvp_skip n_content_transfer_encoding h.cte, walkNvp_skip n_content_disposition h.cd⟩⟩

theorem scan_in_reply_to {mktime : Nat → Nat → Nat → Int} {st st' : HeaderScan} {x : Text} {fs : List Text} (hx : HasName (bs "in-reply-to:") x) (h : Walks mktime st (x :: fs) st') :
    ∃ st1, scanLine mktime st x = .ok st1 ∧ Walks mktime st1 fs st' := by
  have hs : bs "in-reply-to:" ∈ scanNames := by decide
  have ho := other_name hs hx
  have q : hasPrefixCase (bs "in-reply-to:") x = true := (hasPrefix_iff (by decide)).2 hx
  have n_to := ho (bs "to:") (by decide) (by decide)
  have q_to := no_prefix (by decide) n_to
  have n_cc := ho (bs "cc:") (by decide) (by decide)
  have q_cc := no_prefix (by decide) n_cc
  have n_from := ho (bs "from:") (by decide) (by decide)
  have q_from := no_prefix (by decide) n_from
  have n_subject := ho (bs "subject:") (by decide) (by decide)
  have q_subject := no_prefix (by decide) n_subject
  have n_content_type := ho (bs "content-type:") (by decide) (by decide)
  have q_content_type := no_prefix (by decide) n_content_type
  have n_content_transfer_encoding := ho (bs "content-transfer-encoding:") (by decide) (by decide)
  have q_content_transfer_encoding := no_prefix (by decide) n_content_transfer_encoding
  have n_content_disposition := ho (bs "content-disposition:") (by decide) (by decide)
  have q_content_disposition := no_prefix (by decide) n_content_disposition
  have n_date := ho (bs "date:") (by decide) (by decide)
  have q_date := no_prefix (by decide) n_date
  have n_message_id := ho (bs "message-id:") (by decide) (by decide)
  have q_message_id := no_prefix (by decide) n_message_id
  have n_references := ho (bs "references:") (by decide) (by decide)
  have q_references := no_prefix (by decide) n_references
  have n_status := ho (bs "status:") (by decide) (by decide)
  have q_status := no_prefix (by decide) n_status
  have n_x_status := ho (bs "x-status:") (by decide) (by decide)
  have q_x_status := no_prefix (by decide) n_x_status
  have hw := h.inReplyTo
  by_cases ho : st.hdrs.inReplyTo = none
  · rw [ho] at hw
    cases hw with
    | skip hn _ => exact absurd hx (hn.resolve_right (by simp))
    | take hf hv hw =>
      have e := copy_value (by decide) hf hv
      simp only [scanLine, scanRest, q, q_to, q_cc, q_from, q_subject, q_content_type, q_content_transfer_encoding, q_content_disposition, q_date, q_message_id, q_references, q_status, q_x_status, firstNvp_other q_content_type, firstNvp_other q_content_transfer_encoding, firstNvp_other q_content_disposition, bind, Except.bind, Bool.false_eq_true, and_false, if_false, and_true, if_true, ho, e]
      exact ⟨_, rfl, ⟨walkAll_skip n_to h.to, walkAll_skip n_cc h.cc, walkFirst_skip (.inl n_from) h.«from», walkFirst_skip (.inl n_subject) h.subject, walkFirst_skip (.inl n_message_id) h.messageId, hw, walkFirst_skip (.inl n_references) h.references, walkDate_skip (.inl n_date) h.date, by rw [h.seen, status_skip n_status n_x_status], by rw [h.replied, status_skip n_status n_x_status], by rw [h.flagged, status_skip n_status n_x_status], walkNvp_skip n_content_type h.ct, walkNvp_skip n_content_transfer_encoding h.cte, walkNvp_skip n_content_disposition h.cd⟩⟩
  · simp only [scanLine, scanRest, q, q_to, q_cc, q_from, q_subject, q_content_type, q_content_transfer_encoding, q_content_disposition, q_date, q_message_id, q_references, q_status, q_x_status, firstNvp_other q_content_type, firstNvp_other q_content_transfer_encoding, firstNvp_other q_content_disposition, bind, Except.bind, Bool.false_eq_true, and_false, if_false, and_true, if_true, ho]
    exact ⟨_, rfl, ⟨walkAll_skip n_to h.to, walkAll_skip n_cc h.cc, walkFirst_skip (.inl n_from) h.«from», walkFirst_skip (.inl n_subject) h.subject, walkFirst_skip (.inl n_message_id) h.messageId, walkFirst_skip (.inr ho) hw, walkFirst_skip (.inl n_references) h.references, walkDate_skip (.inl n_date) h.date, by rw [h.seen, status_skip n_status n_x_status], by rw [h.replied, status_skip n_status n_x_status], by rw [h.flagged, status_skip n_status n_x_status], walkNvp_skip n_content_type h.ct, walkNvp_skip n_content_transfer_encoding h.cte, walkNvp_skip n_content_disposition h.cd⟩⟩

theorem scan_references {mktime : Nat → Nat → Nat → Int} {st st' : HeaderScan} {x : Text} {fs : List Text} (hx : HasName (bs "references:") x) (h : Walks mktime st (x :: fs) st') :
    ∃ st1, scanLine mktime st x = .ok st1 ∧ Walks mktime st1 fs st' := by
  have hs : bs "references:" ∈ scanNames := by decide
  have ho := other_name hs hx
  have q : hasPrefixCase (bs "references:") x = true := (hasPrefix_iff (by decide)).2 hx
  have n_to := ho (bs "to:") (by decide) (by decide)
  have q_to := no_prefix (by decide) n_to
  have n_cc := ho (bs "cc:") (by decide) (by decide)
  have q_cc := no_prefix (by decide) n_cc
  have n_from := ho (bs "from:") (by decide) (by decide)
  have q_from := no_prefix (by decide) n_from
  have n_subject := ho (bs "subject:") (by decide) (by decide)
  have q_subject := no_prefix (by decide) n_subject
  have n_content_type := ho (bs "content-type:") (by decide) (by decide)
  have q_content_type := no_prefix (by decide) n_content_type
  have n_content_transfer_encoding := ho (bs "content-transfer-encoding:") (by decide) (by decide)
  have q_content_transfer_encoding := no_prefix (by decide) n_content_transfer_encoding
  have n_content_disposition := ho (bs "content-disposition:") (by decide) (by decide)
  have q_content_disposition := no_prefix (by decide) n_content_disposition
  have n_date := ho (bs "date:") (by decide) (by decide)
  have q_date := no_prefix (by decide) n_date
  have n_message_id := ho (bs "message-id:") (by decide) (by decide)
  have q_message_id := no_prefix (by decide) n_message_id
  have n_in_reply_to := ho (bs "in-reply-to:") (by decide) (by decide)
  have q_in_reply_to := no_prefix (by decide) n_in_reply_to
  have n_status := ho (bs "status:") (by decide) (by decide)
  have q_status := no_prefix (by decide) n_status
  have n_x_status := ho (bs "x-status:") (by decide) (by decide)
  have q_x_status := no_prefix (by decide) n_x_status
  have hw := h.references
  by_cases ho : st.hdrs.references = none
  · rw [ho] at hw
    cases hw with
    | skip hn _ => exact absurd hx (hn.resolve_right (by simp))
    | take hf hv hw =>
      have e := copy_value (by decide) hf hv
      simp only [scanLine, scanRest, q, q_to, q_cc, q_from, q_subject, q_content_type, q_content_transfer_encoding, q_content_disposition, q_date, q_message_id, q_in_reply_to, q_status, q_x_status, firstNvp_other q_content_type, firstNvp_other q_content_transfer_encoding, firstNvp_other q_content_disposition, bind, Except.bind, Bool.false_eq_true, and_false, if_false, and_true, if_true, ho, e]
      exact ⟨_, rfl, ⟨walkAll_skip n_to h.to, walkAll_skip n_cc h.cc, walkFirst_skip (.inl n_from) h.«from», walkFirst_skip (.inl n_subject) h.subject, walkFirst_skip (.inl n_message_id) h.messageId, walkFirst_skip (.inl n_in_reply_to) h.inReplyTo, hw, walkDate_skip (.inl n_date) h.date, by rw [h.seen, status_skip n_status n_x_status], by rw [h.replied, status_skip n_status n_x_status], by rw [h.flagged, status_skip n_status n_x_status], walkNvp_skip n_content_type h.ct, walkNvp_skip n_content_transfer_encoding h.cte, walkNvp_skip n_content_disposition h.cd⟩⟩
  · simp only [scanLine, scanRest, q, q_to, q_cc, q_from, q_subject, q_content_type, q_content_transfer_encoding, q_content_disposition, q_date, q_message_id, q_in_reply_to, q_status, q_x_status, firstNvp_other q_content_type, firstNvp_other q_content_transfer_encoding, firstNvp_other q_content_disposition, bind, Except.bind, Bool.false_eq_true, and_false, if_false, and_true, if_true, ho]
    exact ⟨_, rfl, ⟨walkAll_skip n_to h.to, walkAll_skip n_cc h.cc, walkFirst_skip (.inl n_from) h.«from», walkFirst_skip (.inl n_subject) h.subject, walkFirst_skip (.inl n_message_id) h.messageId, walkFirst_skip (.inl n_in_reply_to) h.inReplyTo, walkFirst_skip (.inr ho) hw, walkDate_skip (.inl n_date) h.date, by rw [h.seen, status_skip n_status n_x_status], by rw [h.replied, status_skip n_status n_x_status], by rw [h.flagged, status_skip n_status n_x_status], walkNvp_skip n_content_type h.ct, walkNvp_skip n_content_transfer_encoding h.cte, walkNvp_skip n_content_disposition h.cd⟩⟩

theorem scan_status {mktime : Nat → Nat → Nat → Int} {st st' : HeaderScan} {x : Text} {fs : List Text} (hx : HasName (bs "status:") x) (h : Walks mktime st (x :: fs) st') :
    ∃ st1, scanLine mktime st x = .ok st1 ∧ Walks mktime st1 fs st' := by
  have hs : bs "status:" ∈ scanNames := by decide
  have ho := other_name hs hx
  have q : hasPrefixCase (bs "status:") x = true := (hasPrefix_iff (by decide)).2 hx
  have n_to := ho (bs "to:") (by decide) (by decide)
  have q_to := no_prefix (by decide) n_to
  have n_cc := ho (bs "cc:") (by decide) (by decide)
  have q_cc := no_prefix (by decide) n_cc
  have n_from := ho (bs "from:") (by decide) (by decide)
  have q_from := no_prefix (by decide) n_from
  have n_subject := ho (bs "subject:") (by decide) (by decide)
  have q_subject := no_prefix (by decide) n_subject
  have n_content_type := ho (bs "content-type:") (by decide) (by decide)
  have q_content_type := no_prefix (by decide) n_content_type
  have n_content_transfer_encoding := ho (bs "content-transfer-encoding:") (by decide) (by decide)
  have q_content_transfer_encoding := no_prefix (by decide) n_content_transfer_encoding
  have n_content_disposition := ho (bs "content-disposition:") (by decide) (by decide)
  have q_content_disposition := no_prefix (by decide) n_content_disposition
  have n_date := ho (bs "date:") (by decide) (by decide)
  have q_date := no_prefix (by decide) n_date
  have n_message_id := ho (bs "message-id:") (by decide) (by decide)
  have q_message_id := no_prefix (by decide) n_message_id
  have n_in_reply_to := ho (bs "in-reply-to:") (by decide) (by decide)
  have q_in_reply_to := no_prefix (by decide) n_in_reply_to
  have n_references := ho (bs "references:") (by decide) (by decide)
  have q_references := no_prefix (by decide) n_references
  have n_x_status := ho (bs "x-status:") (by decide) (by decide)
  have q_x_status := no_prefix (by decide) n_x_status
  obtain ⟨v, hv⟩ := hx
  have ev : x.drop 7 = v := drop_name hv
  simp only [scanLine, scanRest, q, q_to, q_cc, q_from, q_subject, q_content_type, q_content_transfer_encoding, q_content_disposition, q_date, q_message_id, q_in_reply_to, q_references, q_x_status, firstNvp_other q_content_type, firstNvp_other q_content_transfer_encoding, firstNvp_other q_content_disposition, bind, Except.bind, Bool.false_eq_true, and_false, if_false, and_true, if_true, ev, C45_status]
  exact ⟨_, rfl, ⟨walkAll_skip n_to h.to, walkAll_skip n_cc h.cc, walkFirst_skip (.inl n_from) h.«from», walkFirst_skip (.inl n_subject) h.subject, walkFirst_skip (.inl n_message_id) h.messageId, walkFirst_skip (.inl n_in_reply_to) h.inReplyTo, walkFirst_skip (.inl n_references) h.references, walkDate_skip (.inl n_date) h.date, by rw [h.seen, status_take (.inl hv)]; simp [or_assoc], by rw [h.replied, status_take (.inl hv)]; simp [or_assoc], by rw [h.flagged, status_take (.inl hv)]; simp [or_assoc], walkNvp_skip n_content_type h.ct, walkNvp_skip n_content_transfer_encoding h.cte, walkNvp_skip n_content_disposition h.cd⟩⟩

theorem scan_x_status {mktime : Nat → Nat → Nat → Int} {st st' : HeaderScan} {x : Text} {fs : List Text} (hx : HasName (bs "x-status:") x) (h : Walks mktime st (x :: fs) st') :
    ∃ st1, scanLine mktime st x = .ok st1 ∧ Walks mktime st1 fs st' := by
  have hs : bs "x-status:" ∈ scanNames := by decide
  have ho := other_name hs hx
  have q : hasPrefixCase (bs "x-status:") x = true := (hasPrefix_iff (by decide)).2 hx
  have n_to := ho (bs "to:") (by decide) (by decide)
  have q_to := no_prefix (by decide) n_to
  have n_cc := ho (bs "cc:") (by decide) (by decide)
  have q_cc := no_prefix (by decide) n_cc
  have n_from := ho (bs "from:") (by decide) (by decide)
  have q_from := no_prefix (by decide) n_from
  have n_subject := ho (bs "subject:") (by decide) (by decide)
  have q_subject := no_prefix (by decide) n_subject
  have n_content_type := ho (bs "content-type:") (by decide) (by decide)
  have q_content_type := no_prefix (by decide) n_content_type
  have n_content_transfer_encoding := ho (bs "content-transfer-encoding:") (by decide) (by decide)
  have q_content_transfer_encoding := no_prefix (by decide) n_content_transfer_encoding
  have n_content_disposition := ho (bs "content-disposition:") (by decide) (by decide)
  have q_content_disposition := no_prefix (by decide) n_content_disposition
  have n_date := ho (bs "date:") (by decide) (by decide)
  have q_date := no_prefix (by decide) n_date
  have n_message_id := ho (bs "message-id:") (by decide) (by decide)
  have q_message_id := no_prefix (by decide) n_message_id
  have n_in_reply_to := ho (bs "in-reply-to:") (by decide) (by decide)
  have q_in_reply_to := no_prefix (by decide) n_in_reply_to
  have n_references := ho (bs "references:") (by decide) (by decide)
  have q_references := no_prefix (by decide) n_references
  have n_status := ho (bs "status:") (by decide) (by decide)
  have q_status := no_prefix (by decide) n_status
  obtain ⟨v, hv⟩ := hx
  have ev : x.drop 9 = v := drop_name hv
  simp only [scanLine, scanRest, q, q_to, q_cc, q_from, q_subject, q_content_type, q_content_transfer_encoding, q_content_disposition, q_date, q_message_id, q_in_reply_to, q_references, q_status, firstNvp_other q_content_type, firstNvp_other q_content_transfer_encoding, firstNvp_other q_content_disposition, bind, Except.bind, Bool.false_eq_true, and_false, if_false, and_true, if_true, ev, C45_status]
  exact ⟨_, rfl, ⟨walkAll_skip n_to h.to, walkAll_skip n_cc h.cc, walkFirst_skip (.inl n_from) h.«from», walkFirst_skip (.inl n_subject) h.subject, walkFirst_skip (.inl n_message_id) h.messageId, walkFirst_skip (.inl n_in_reply_to) h.inReplyTo, walkFirst_skip (.inl n_references) h.references, walkDate_skip (.inl n_date) h.date, by rw [h.seen, status_take (.inr hv)]; simp [or_assoc], by rw [h.replied, status_take (.inr hv)]; simp [or_assoc], by rw [h.flagged, status_take (.inr hv)]; simp [or_assoc], walkNvp_skip n_content_type h.ct, walkNvp_skip n_content_transfer_encoding h.cte, walkNvp_skip n_content_disposition h.cd⟩⟩

theorem scan_other {mktime : Nat → Nat → Nat → Int} {st st' : HeaderScan} {x : Text} {fs : List Text} (hx : ∀ n ∈ scanNames, ¬ HasName n x) (h : Walks mktime st (x :: fs) st') :
    ∃ st1, scanLine mktime st x = .ok st1 ∧ Walks mktime st1 fs st' := by
  have n_to := hx (bs "to:") (by decide)
  have q_to := no_prefix (by decide) n_to
  have n_cc := hx (bs "cc:") (by decide)
  have q_cc := no_prefix (by decide) n_cc
  have n_from := hx (bs "from:") (by decide)
  have q_from := no_prefix (by decide) n_from
  have n_subject := hx (bs "subject:") (by decide)
  have q_subject := no_prefix (by decide) n_subject
  have n_content_type := hx (bs "content-type:") (by decide)
  have q_content_type := no_prefix (by decide) n_content_type
  have n_content_transfer_encoding := hx (bs "content-transfer-encoding:") (by decide)
  have q_content_transfer_encoding := no_prefix (by decide) n_content_transfer_encoding
  have n_content_disposition := hx (bs "content-disposition:") (by decide)
  have q_content_disposition := no_prefix (by decide) n_content_disposition
  have n_date := hx (bs "date:") (by decide)
  have q_date := no_prefix (by decide) n_date
  have n_message_id := hx (bs "message-id:") (by decide)
  have q_message_id := no_prefix (by decide) n_message_id
  have n_in_reply_to := hx (bs "in-reply-to:") (by decide)
  have q_in_reply_to := no_prefix (by decide) n_in_reply_to
  have n_references := hx (bs "references:") (by decide)
  have q_references := no_prefix (by decide) n_references
  have n_status := hx (bs "status:") (by decide)
  have q_status := no_prefix (by decide) n_status
  have n_x_status := hx (bs "x-status:") (by decide)
  have q_x_status := no_prefix (by decide) n_x_status
  simp only [scanLine, scanRest, q_to, q_cc, q_from, q_subject, q_content_type, q_content_transfer_encoding, q_content_disposition, q_date, q_message_id, q_in_reply_to, q_references, q_status, q_x_status, firstNvp_other q_content_type, firstNvp_other q_content_transfer_encoding, firstNvp_other q_content_disposition, bind, Except.bind, Bool.false_eq_true, and_false, if_false]
  exact ⟨_, rfl, ⟨walkAll_skip n_to h.to, walkAll_skip n_cc h.cc, walkFirst_skip (.inl n_from) h.«from», walkFirst_skip (.inl n_subject) h.subject, walkFirst_skip (.inl n_message_id) h.messageId, walkFirst_skip (.inl n_in_reply_to) h.inReplyTo, walkFirst_skip (.inl n_references) h.references, walkDate_skip (.inl n_date) h.date, by rw [h.seen, status_skip n_status n_x_status], by rw [h.replied, status_skip n_status n_x_status], by rw [h.flagged, status_skip n_status n_x_status], walkNvp_skip n_content_type h.ct, walkNvp_skip n_content_transfer_encoding h.cte, walkNvp_skip n_content_disposition h.cd⟩⟩

theorem scan_step {mktime : Nat → Nat → Nat → Int} {st st' : HeaderScan} {x : Text} {fs : List Text} (h : Walks mktime st (x :: fs) st') : ∃ st1, scanLine mktime st x = .ok st1 ∧ Walks mktime st1 fs st' := by
  by_cases hx : ∃ n ∈ scanNames, HasName n x
  · obtain ⟨n, hn, hx⟩ := hx
    simp only [scanNames, List.mem_cons, List.not_mem_nil, or_false] at hn
    rcases hn with rfl | rfl | rfl | rfl | rfl | rfl | rfl | rfl | rfl | rfl | rfl | rfl | rfl
    · exact scan_to hx h
    · exact scan_cc hx h
    · exact scan_from hx h
    · exact scan_subject hx h
    · exact scan_content_type hx h
    · exact scan_content_transfer_encoding hx h
    · exact scan_content_disposition hx h
    · exact scan_date hx h
    · exact scan_message_id hx h
    · exact scan_in_reply_to hx h
    · exact scan_references hx h
    · exact scan_status hx h
    · exact scan_x_status hx h
  · exact scan_other (fun n hn h => hx ⟨n, hn, h⟩) h

theorem scan_walks {mktime : Nat → Nat → Nat → Int} : ∀ {fs : List Text} {st st' : HeaderScan}, Walks mktime st fs st' → scanHeader mktime st fs = .ok st' := by
  intro fs
  induction fs with
  | nil =>
    intro st st' h
    obtain ⟨⟨a, b, c, d, e, f, g, i, j, k, l⟩, m, n, o⟩ := st
    obtain ⟨⟨a', b', c', d', e', f', g', i', j', k', l'⟩, m', n', o'⟩ := st'
    obtain ⟨h1, h2, h3, h4, h5, h6, h7, h8, h9, h10, h11, h12, h13, h14⟩ := h
    have hs : ∀ c, ¬ StatusLetter c [] := fun c ⟨_, hg, _⟩ => by simp at hg
    simp only [hs, or_false] at h9 h10 h11
    cases h1; cases h2; cases h3; cases h4; cases h5; cases h6; cases h7; cases h8; cases h12; cases h13; cases h14
    rw [Bool.eq_iff_iff.2 h9, Bool.eq_iff_iff.2 h10, Bool.eq_iff_iff.2 h11]
    rfl
  | cons x fs ih =>
    intro st st' h
    obtain ⟨st1, e, h1⟩ := scan_step h
    simp only [scanHeader, e, bind, Except.bind]
    exact ih h1

/-- The headers of a message are collected as they are meant. -/
theorem scan_means {mktime : Nat → Nat → Nat → Int} {fields : List Text} {h : Headers} {ct cte cd : Option Nvp} (hh : HeadersMean mktime fields h) (h1 : ParamField (bs "content-type:") fields ct)
    (h2 : ParamField (bs "content-transfer-encoding:") fields cte) (h3 : ParamField (bs "content-disposition:") fields cd) : scanHeader mktime ⟨initHeaders, none, none, none⟩ fields = .ok ⟨h, ct, cte, cd⟩ :=
  scan_walks ⟨walkAll_joined hh.to, walkAll_joined hh.cc, walkFirst_of hh.from, walkFirst_of hh.subject, walkFirst_of hh.messageId, walkFirst_of hh.inReplyTo, walkFirst_of hh.references, walkDate_of hh.date,
    by simpa [initHeaders] using hh.seen, by simpa [initHeaders] using hh.replied, by simpa [initHeaders] using hh.flagged, walkNvp_of h1, walkNvp_of h2, walkNvp_of h3⟩

theorem makeNvp_other {n x : Text} (h : hasPrefixCase n x = false) : makeNvp x n = .ok none := by simp [makeNvp, h]

theorem part_walks : ∀ {fs : List Text} {st : HeaderScan} {ct cte cd : Option Nvp}, WalkNvp (bs "content-type:") st.ct fs ct → WalkNvp (bs "content-transfer-encoding:") st.cte fs cte →
    WalkNvp (bs "content-disposition:") st.cd fs cd → scanPart st fs = .ok ⟨st.hdrs, ct, cte, cd⟩ := by
  intro fs
  induction fs with
  | nil =>
    intro st ct cte cd h1 h2 h3
    obtain ⟨h, a, b, c⟩ := st
    cases h1; cases h2; cases h3; rfl
  | cons x fs ih =>
    intro st ct cte cd h1 h2 h3
    have m1 : bs "content-type:" ∈ scanNames := by decide
    have m2 : bs "content-transfer-encoding:" ∈ scanNames := by decide
    have m3 : bs "content-disposition:" ∈ scanNames := by decide
    obtain ⟨hd, a, b, c⟩ := st
    simp only [scanPart, bind, Except.bind, scanPartLine]
    cases h1 with
    | take hf hv h1 =>
      rw [makeNvp_field (by decide) hf hv]
      simp only
      exact ih h1 (walkNvp_skip (other_name m1 ⟨_, hf⟩ _ m2 (by decide)) h2) (walkNvp_skip (other_name m1 ⟨_, hf⟩ _ m3 (by decide)) h3)
    | skip n1 h1 =>
      rw [makeNvp_other (no_prefix m1 n1)]
      simp only
      cases h2 with
      | take hf hv h2 =>
        rw [makeNvp_field (by decide) hf hv]
        simp only
        exact ih h1 h2 (walkNvp_skip (other_name m2 ⟨_, hf⟩ _ m3 (by decide)) h3)
      | skip n2 h2 =>
        rw [makeNvp_other (no_prefix m2 n2)]
        simp only
        cases h3 with
        | take hf hv h3 =>
          rw [makeNvp_field (by decide) hf hv]
          simp only
          exact ih h1 h2 h3
        | skip n3 h3 =>
          rw [makeNvp_other (no_prefix m3 n3)]
          exact ih h1 h2 h3

/-- So are those of a part. -/
theorem part_means {fields : List Text} {ct cte cd : Option Nvp} (h1 : ParamField (bs "content-type:") fields ct) (h2 : ParamField (bs "content-transfer-encoding:") fields cte)
    (h3 : ParamField (bs "content-disposition:") fields cd) : scanPart ⟨initHeaders, none, none, none⟩ fields = .ok ⟨initHeaders, ct, cte, cd⟩ :=
  part_walks (st := ⟨initHeaders, none, none, none⟩) (walkNvp_of h1) (walkNvp_of h2) (walkNvp_of h3)

end Mairix
