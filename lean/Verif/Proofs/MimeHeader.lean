import Verif.Props.MessageDate
import Verif.Props.Header
import Verif.Props.Nvp

/-!
# The header of a message: what the loop over the fields collects
-/

namespace Mairix
open Spec

/-- A name as the fields are looked for: small letters and the like, and a colon only at the end. -/
def PlainName (n : Text) : Prop := ∃ k, n = k ++ [0x3a] ∧ 0x3a ∉ k ∧ lower k = k

theorem toLower_colon : ∀ c : UInt8, toLower c = 0x3a ↔ c = 0x3a := forall_byte (by decide +kernel)

theorem lower_colon {k : Text} : 0x3a ∈ lower k ↔ 0x3a ∈ k := by
  unfold lower
  rw [List.mem_map]
  constructor
  · rintro ⟨c, hc, h⟩
    rw [(toLower_colon c).1 h] at hc
    exact hc
  · intro h; exact ⟨_, h, by decide⟩

theorem fieldIs_split {n f v : Text} (hn : PlainName n) (h : FieldIs n f v) : ∃ k, f = k ++ 0x3a :: v ∧ 0x3a ∉ k ∧ n = lower k ++ [0x3a] := by
  obtain ⟨k, rfl, hk, hl⟩ := hn
  obtain ⟨p, rfl, hp⟩ := h
  rcases List.eq_nil_or_concat p with rfl | ⟨p, c, rfl⟩
  · simp [lower] at hp
  · rw [List.concat_eq_append] at hp ⊢
    have h1 : lower p ++ [toLower c] = k ++ [0x3a] := by rw [← hp]; simp [lower]
    have h2 := List.append_inj' h1 rfl
    simp at h2
    have hc := (toLower_colon c).1 h2.2
    subst hc
    refine ⟨p, by simp, fun h => hk ?_, by rw [h2.1]⟩
    rw [← h2.1]; exact lower_colon.2 h

/-- The prefix test finds the name. -/
theorem hasPrefix_iff {n f : Text} (hn : PlainName n) : hasPrefixCase n f = true ↔ HasName n f := by
  have hln : lower n = n := by obtain ⟨k, rfl, -, h⟩ := hn; simp [lower] at h ⊢; exact ⟨h, by decide⟩
  unfold hasPrefixCase HasName FieldIs
  simp only [decide_eq_true_eq, hln]
  constructor
  · intro h
    exact ⟨f.drop n.length, f.take n.length, by simp, h.symm⟩
  · rintro ⟨v, p, rfl, hp⟩
    have : p.length = n.length := by rw [← hp]; simp [lower]
    rw [← this, List.take_left, hp]

/-- No field has two names. -/
theorem hasName_unique {n m f : Text} (hn : PlainName n) (hm : PlainName m) (h1 : HasName n f) (h2 : HasName m f) : n = m := by
  obtain ⟨v, h1⟩ := h1
  obtain ⟨w, h2⟩ := h2
  obtain ⟨k, e1, hk, rfl⟩ := fieldIs_split hn h1
  obtain ⟨j, e2, hj, rfl⟩ := fieldIs_split hm h2
  have := strchr_eq (r := v) hk
  rw [← e1, e2, strchr_eq hj] at this
  simp at this
  rw [this.1]

/-- The value of a field. -/
theorem fieldIs_value {n f v : Text} (hn : PlainName n) (h : FieldIs n f v) : strchr 0x3a f = some (f.take (f.length - v.length - 1), v) := by
  obtain ⟨k, rfl, hk, rfl⟩ := fieldIs_split hn h
  rw [strchr_eq hk]
  congr 2
  rw [List.take_left' (by simp only [List.length_append, List.length_cons]; omega)]

theorem copy_value {n f v x : Text} (hn : PlainName n) (h : FieldIs n f v) (hx : ValueMeans v x) : copyHeaderValue f = .ok (some x) := by
  obtain ⟨d, h1, rfl⟩ := hx
  unfold copyHeaderValue
  rw [fieldIs_value hn h]
  simp only
  rw [C35_meaning h1]
  rfl

theorem fieldIs_unique {n f v w : Text} (hn : PlainName n) (h : FieldIs n f v) (h' : FieldIs n f w) : v = w := by
  have h1 := fieldIs_value hn h
  rw [fieldIs_value hn h'] at h1
  simp at h1
  exact h1.2.symm

instance (n : Text) : Decidable (PlainName n) :=
  if h : n.getLast? = some 0x3a ∧ 0x3a ∉ n.dropLast ∧ lower n.dropLast = n.dropLast then .isTrue ⟨n.dropLast, by
    rcases List.eq_nil_or_concat n with rfl | ⟨k, c, rfl⟩
    · simp at h
    · rw [List.concat_eq_append] at h ⊢; simp at h; simp [h.1], h.2.1, h.2.2⟩
  else .isFalse (by rintro ⟨k, rfl, h1, h2⟩; exact h (by simp [h1, h2]))

/-! ## The values that the loop keeps -/

/-- The values of all fields of a name are added. -/
inductive WalkAll (name : Text) : Option Text → List Text → Option Text → Prop
  | nil {o} : WalkAll name o [] o
  | skip {o f fs o'} : ¬ HasName name f → WalkAll name o fs o' → WalkAll name o (f :: fs) o'
  | take {o f v x fs o'} : FieldIs name f v → ValueMeans v x → WalkAll name (some (match o with | none => x | some p => p ++ bs ", " ++ x)) fs o' → WalkAll name o (f :: fs) o'

/-- The first field of a name is taken. -/
inductive WalkFirst (name : Text) : Option Text → List Text → Option Text → Prop
  | nil {o} : WalkFirst name o [] o
  | skip {o f fs o'} : ¬ HasName name f ∨ o ≠ none → WalkFirst name o fs o' → WalkFirst name o (f :: fs) o'
  | take {f v x fs o'} : FieldIs name f v → ValueMeans v x → WalkFirst name (some x) fs o' → WalkFirst name none (f :: fs) o'

/-- The date. -/
inductive WalkDate (mktime : Nat → Nat → Nat → Int) : Int → List Text → Int → Prop
  | nil {o} : WalkDate mktime o [] o
  | skip {o f fs o'} : ¬ HasName (bs "date:") f ∨ o ≠ 0 → WalkDate mktime o fs o' → WalkDate mktime o (f :: fs) o'
  | take {f v x d fs o'} : FieldIs (bs "date:") f v → ValueMeans v x → DateMeans mktime x d → WalkDate mktime d fs o' → WalkDate mktime 0 (f :: fs) o'

/-- A header with parameters. -/
inductive WalkNvp (name : Text) : Option Nvp → List Text → Option Nvp → Prop
  | nil {o} : WalkNvp name o [] o
  | skip {o f fs o'} : ¬ HasName name f → WalkNvp name o fs o' → WalkNvp name o (f :: fs) o'
  | take {f v es fs o'} : FieldIs name f v → Params v [] es → WalkNvp name (some es) fs o' → WalkNvp name none (f :: fs) o'

theorem walkAll_of {name : Text} {fs vs : List Text} (h : FieldValues name fs vs) : ∀ o : Option Text, WalkAll name o fs
    (if vs = [] then o else some ((match o with | none => [] | some p => p ++ bs ", ") ++ (bs ", ").intercalate vs)) := by
  induction h with
  | nil => intro o; exact .nil
  | skip hn _ ih => intro o; exact .skip hn (ih o)
  | @take f v x fs vs hf hx h ih =>
    intro o
    refine .take hf hx ?_
    have := ih (some (match o with | none => x | some p => p ++ bs ", " ++ x))
    rw [if_neg (by simp)]
    cases vs with
    | nil => cases o <;> simpa using this
    | cons y vs =>
      rw [if_neg (by simp)] at this
      cases o <;> simpa using this

theorem walkAll_joined {name : Text} {fs : List Text} {o : Option Text} (h : JoinedFields name fs o) : WalkAll name none fs o := by
  obtain ⟨vs, h, rfl⟩ := h
  have := walkAll_of h none
  simpa using this

theorem walkFirst_some {name : Text} {v : Text} : ∀ fs : List Text, WalkFirst name (some v) fs (some v)
  | [] => .nil
  | _ :: fs => .skip (.inr (by simp)) (walkFirst_some fs)

theorem walkFirst_of {name : Text} {fs : List Text} {o : Option Text} (h : FirstField name fs o) : WalkFirst name none fs o := by
  rcases h with ⟨h, rfl⟩ | ⟨a, f, b, v, x, rfl, h, hf, hx, rfl⟩
  · induction fs with
    | nil => exact .nil
    | cons f fs ih => exact .skip (.inl (h f (by simp))) (ih (fun g hg => h g (by simp [hg])))
  · induction a with
    | nil => exact .take hf hx (walkFirst_some b)
    | cons g a ih => exact .skip (.inl (h g (by simp))) (ih (fun g' hg => h g' (by simp [hg])))

theorem walkDate_nonzero {mktime : Nat → Nat → Nat → Int} {d : Int} (h : d ≠ 0) : ∀ fs : List Text, WalkDate mktime d fs d
  | [] => .nil
  | _ :: fs => .skip (.inr h) (walkDate_nonzero h fs)

theorem walkDate_absent {mktime : Nat → Nat → Nat → Int} {d : Int} : ∀ fs : List Text, (∀ f ∈ fs, ¬ HasName (bs "date:") f) → WalkDate mktime d fs d
  | [], _ => .nil
  | f :: fs, h => .skip (.inl (h f (by simp))) (walkDate_absent fs (fun g hg => h g (by simp [hg])))

theorem walkDate_of {mktime : Nat → Nat → Nat → Int} {fs : List Text} {d : Int} (h : DateField mktime fs d) : WalkDate mktime 0 fs d := by
  rcases h with ⟨h, rfl⟩ | ⟨a, f, b, v, x, rfl, h, hf, hx, hd, hb⟩
  · exact walkDate_absent fs h
  · induction a with
    | nil =>
      refine .take hf hx hd ?_
      rcases hb with hb | hb
      · exact walkDate_nonzero hb b
      · exact walkDate_absent b hb
    | cons g a ih => exact .skip (.inl (h g (by simp))) (ih (fun g' hg => h g' (by simp [hg])))

theorem walkNvp_absent {name : Text} {o : Option Nvp} : ∀ fs : List Text, (∀ f ∈ fs, ¬ HasName name f) → WalkNvp name o fs o
  | [], _ => .nil
  | f :: fs, h => .skip (h f (by simp)) (walkNvp_absent fs (fun g hg => h g (by simp [hg])))

theorem walkNvp_of {name : Text} {fs : List Text} {o : Option Nvp} (h : ParamField name fs o) : WalkNvp name none fs o := by
  rcases h with ⟨h, rfl⟩ | ⟨a, f, b, v, es, rfl, h, hf, hx, rfl⟩
  · exact walkNvp_absent fs h
  · induction a with
    | nil => exact .take hf hx (walkNvp_absent b (fun g hg => h g (by simpa using hg)))
    | cons g a ih => exact .skip (h g (by simp)) (ih (fun g' hg => h g' (by simp at hg ⊢; exact .inr hg)))

/-- What the loop over the rest of the fields does to what has been collected. -/
structure Walks (mktime : Nat → Nat → Nat → Int) (st : HeaderScan) (fs : List Text) (st' : HeaderScan) : Prop where
  to : WalkAll (bs "to:") st.hdrs.to fs st'.hdrs.to
  cc : WalkAll (bs "cc:") st.hdrs.cc fs st'.hdrs.cc
  «from» : WalkFirst (bs "from:") st.hdrs.from fs st'.hdrs.from
  subject : WalkFirst (bs "subject:") st.hdrs.subject fs st'.hdrs.subject
  messageId : WalkFirst (bs "message-id:") st.hdrs.messageId fs st'.hdrs.messageId
  inReplyTo : WalkFirst (bs "in-reply-to:") st.hdrs.inReplyTo fs st'.hdrs.inReplyTo
  references : WalkFirst (bs "references:") st.hdrs.references fs st'.hdrs.references
  date : WalkDate mktime st.hdrs.date fs st'.hdrs.date
  seen : st'.hdrs.seen = true ↔ st.hdrs.seen = true ∨ StatusLetter 0x52 fs
  replied : st'.hdrs.replied = true ↔ st.hdrs.replied = true ∨ StatusLetter 0x41 fs
  flagged : st'.hdrs.flagged = true ↔ st.hdrs.flagged = true ∨ StatusLetter 0x46 fs
  ct : WalkNvp (bs "content-type:") st.ct fs st'.ct
  cte : WalkNvp (bs "content-transfer-encoding:") st.cte fs st'.cte
  cd : WalkNvp (bs "content-disposition:") st.cd fs st'.cd

theorem walkAll_skip {name : Text} {o o' : Option Text} {f : Text} {fs : List Text} (hn : ¬ HasName name f) (h : WalkAll name o (f :: fs) o') : WalkAll name o fs o' := by
  cases h with
  | skip _ h => exact h
  | take hf _ _ => exact absurd ⟨_, hf⟩ hn

theorem walkFirst_skip {name : Text} {o o' : Option Text} {f : Text} {fs : List Text} (hn : ¬ HasName name f ∨ o ≠ none) (h : WalkFirst name o (f :: fs) o') : WalkFirst name o fs o' := by
  cases h with
  | skip _ h => exact h
  | take hf _ _ =>
    rcases hn with hn | hn
    · exact absurd ⟨_, hf⟩ hn
    · exact absurd rfl hn

theorem walkDate_skip {mktime : Nat → Nat → Nat → Int} {o o' : Int} {f : Text} {fs : List Text} (hn : ¬ HasName (bs "date:") f ∨ o ≠ 0) (h : WalkDate mktime o (f :: fs) o') : WalkDate mktime o fs o' := by
  cases h with
  | skip _ h => exact h
  | take hf _ _ _ =>
    rcases hn with hn | hn
    · exact absurd ⟨_, hf⟩ hn
    · exact absurd rfl hn

theorem walkNvp_skip {name : Text} {o o' : Option Nvp} {f : Text} {fs : List Text} (hn : ¬ HasName name f) (h : WalkNvp name o (f :: fs) o') : WalkNvp name o fs o' := by
  cases h with
  | skip _ h => exact h
  | take hf _ _ => exact absurd ⟨_, hf⟩ hn

theorem status_skip {c : UInt8} {f : Text} {fs : List Text} (h1 : ¬ HasName (bs "status:") f) (h2 : ¬ HasName (bs "x-status:") f) : StatusLetter c (f :: fs) ↔ StatusLetter c fs := by
  unfold StatusLetter
  constructor
  · rintro ⟨g, hg, v, hv, hc⟩
    rcases List.mem_cons.1 hg with rfl | hg
    · rcases hv with hv | hv
      · exact absurd ⟨v, hv⟩ h1
      · exact absurd ⟨v, hv⟩ h2
    · exact ⟨g, hg, v, hv, hc⟩
  · rintro ⟨g, hg, h⟩; exact ⟨g, by simp [hg], h⟩

theorem status_take {c : UInt8} {f v : Text} {fs : List Text} (h : FieldIs (bs "status:") f v ∨ FieldIs (bs "x-status:") f v) : StatusLetter c (f :: fs) ↔ c ∈ v ∨ StatusLetter c fs := by
  have p1 : PlainName (bs "status:") := by decide
  have p2 : PlainName (bs "x-status:") := by decide
  unfold StatusLetter
  constructor
  · rintro ⟨g, hg, w, hw, hc⟩
    rcases List.mem_cons.1 hg with rfl | hg
    · left
      have : v = w := by
        rcases h with h | h <;> rcases hw with hw | hw
        · exact fieldIs_unique p1 h hw
        · exact absurd (hasName_unique p1 p2 ⟨_, h⟩ ⟨_, hw⟩) (by decide)
        · exact absurd (hasName_unique p2 p1 ⟨_, h⟩ ⟨_, hw⟩) (by decide)
        · exact fieldIs_unique p2 h hw
      rw [this]; exact hc
    · exact .inr ⟨g, hg, w, hw, hc⟩
  · rintro (hc | ⟨g, hg, h⟩)
    · exact ⟨f, by simp, v, h, hc⟩
    · exact ⟨g, by simp [hg], h⟩

/-- A line of none of the names. -/
theorem firstNvp_other {o : Option Nvp} {x n : Text} (h : hasPrefixCase n x = false) : firstNvp o x n = .ok none := by
  cases o <;> simp [firstNvp, makeNvp, h]

/-- The names that are looked for. -/
def scanNames : List Text := [bs "to:", bs "cc:", bs "from:", bs "subject:", bs "content-type:", bs "content-transfer-encoding:", bs "content-disposition:", bs "date:", bs "message-id:", bs "in-reply-to:", bs "references:",
  bs "status:", bs "x-status:"]

theorem scanNames_plain : ∀ n ∈ scanNames, PlainName n := by decide

theorem other_name {n x : Text} (hn : n ∈ scanNames) (h : HasName n x) : ∀ m ∈ scanNames, m ≠ n → ¬ HasName m x :=
  fun m hm hne h' => hne (hasName_unique (scanNames_plain m hm) (scanNames_plain n hn) h' h)

theorem no_prefix {m x : Text} (hm : m ∈ scanNames) (h : ¬ HasName m x) : hasPrefixCase m x = false := by
  cases hp : hasPrefixCase m x with
  | false => rfl
  | true => exact absurd ((hasPrefix_iff (scanNames_plain m hm)).1 hp) h

end Mairix
