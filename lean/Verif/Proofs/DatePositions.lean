import Verif.Proofs.Positions
import Verif.Proofs.Regex
import Verif.Model.Dates
import Verif.Proofs.DbView
import Verif.Proofs.MboxLists

/-!
# The languages of dates, by groups of characters
-/

namespace Mairix
open Spec RE

/-- A way as an expression. -/
def pathRE : List CharClass → RE
  | [] => .eps
  | p :: ps => .seq (.cls p) (pathRE ps)

/-- One of several ways. -/
def pathsRE : List (List CharClass) → RE
  | [] => .none
  | p :: ps => .alt (pathRE p) (pathsRE ps)

theorem follows_iff : ∀ {p : List CharClass} {t : Text}, follows p t = true ↔ Denotes (pathRE p) t
  | [], [] => by simp [follows, pathRE, eps_iff]
  | [], c :: t => by simp [follows, pathRE, eps_iff]
  | p :: ps, [] => by
    simp only [follows, pathRE, seq_iff, cls_iff, Bool.false_eq_true, false_iff]
    rintro ⟨x, y, h1, ⟨c, rfl, -⟩, -⟩
    cases h1
  | p :: ps, c :: t => by
    simp only [follows, pathRE, seq_iff, cls_iff, Bool.and_eq_true]
    rw [follows_iff]
    constructor
    · rintro ⟨h1, h2⟩; exact ⟨[c], t, rfl, ⟨c, rfl, h1⟩, h2⟩
    · rintro ⟨x, y, h1, ⟨d, rfl, h2⟩, h3⟩
      cases h1
      exact ⟨h2, h3⟩

theorem follows_any {ps : List (List CharClass)} {t : Text} : (ps.any fun w => follows w t) = true ↔ Denotes (pathsRE ps) t := by
  induction ps with
  | nil => simp [pathsRE, not_none]
  | cons p ps ih =>
    rw [List.any_cons, Bool.or_eq_true, ih, follows_iff]
    exact alt_iff.symm

theorem follows_append_iff {p q : List CharClass} {t : Text} : follows (p ++ q) t = true ↔ ∃ x y, t = x ++ y ∧ follows p x = true ∧ follows q y = true := by
  induction p generalizing t with
  | nil =>
    rw [List.nil_append]
    constructor
    · intro h; exact ⟨[], t, rfl, rfl, h⟩
    · rintro ⟨x, y, rfl, h1, h2⟩
      cases x with
      | nil => exact h2
      | cons c x => cases h1
  | cons p ps ih =>
    cases t with
    | nil =>
      simp only [List.cons_append, follows, Bool.false_eq_true, false_iff]
      rintro ⟨x, y, h, h1, -⟩
      rw [(List.append_eq_nil_iff.1 h.symm).1] at h1
      cases h1
    | cons c t =>
      simp only [List.cons_append, follows, Bool.and_eq_true, ih]
      constructor
      · rintro ⟨h1, x, y, rfl, h2, h3⟩
        exact ⟨c :: x, y, rfl, by simp [follows, h1, h2], h3⟩
      · rintro ⟨x, y, h, h1, h2⟩
        cases x with
        | nil => cases h1
        | cons d x =>
          cases h
          simp only [follows, Bool.and_eq_true] at h1
          exact ⟨h1.1, x, y, rfl, h1.2, h2⟩

theorem follows_then {a b : List (List CharClass)} {t : Text} :
    ((thenPaths a b).any fun w => follows w t) = true ↔ ∃ x y, t = x ++ y ∧ (a.any fun w => follows w x) = true ∧ (b.any fun w => follows w y) = true := by
  simp only [List.any_eq_true, thenPaths, List.mem_flatMap, List.mem_map]
  constructor
  · rintro ⟨_, ⟨p, hp, q, hq, rfl⟩, h⟩
    obtain ⟨x, y, h1, h2, h3⟩ := follows_append_iff.1 h
    exact ⟨x, y, h1, ⟨p, hp, h2⟩, ⟨q, hq, h3⟩⟩
  · rintro ⟨x, y, h1, ⟨p, hp, h2⟩, ⟨q, hq, h3⟩⟩
    exact ⟨_, ⟨p, hp, q, hq, rfl⟩, follows_append_iff.2 ⟨x, y, h1, h2, h3⟩⟩

theorem isScaled_rest : ∀ {t : Text}, isScaled.rest t = true ↔ ∃ x c, t = x ++ [c] ∧ (∀ d ∈ x, cDigit d = true) ∧ cLetter c = true
  | [] => by simp [isScaled.rest]
  | [c] => by
    simp only [isScaled.rest]
    constructor
    · intro h; exact ⟨[], c, rfl, by simp, h⟩
    · rintro ⟨x, d, h, -, h2⟩
      cases x with
      | nil => cases h; exact h2
      | cons e x =>
        have := congrArg List.length h
        simp at this
  | c :: d :: t => by
    have ih := isScaled_rest (t := d :: t)
    simp only [isScaled.rest, Bool.and_eq_true, ih]
    constructor
    · rintro ⟨h1, x, e, h2, h3, h4⟩
      refine ⟨c :: x, e, by rw [h2]; rfl, ?_, h4⟩
      intro z hz
      rcases List.mem_cons.1 hz with rfl | hz
      · exact h1
      · exact h3 z hz
    · rintro ⟨x, e, h2, h3, h4⟩
      cases x with
      | nil => cases h2
      | cons f x =>
        simp only [List.cons_append, List.cons.injEq] at h2
        obtain ⟨rfl, h2⟩ := h2
        exact ⟨h3 _ List.mem_cons_self, x, e, h2, fun z hz => h3 z (List.mem_cons_of_mem _ hz), h4⟩

theorem star_cls {p : UInt8 → Bool} : ∀ {t : Text}, Denotes (.star (.cls p)) t ↔ ∀ c ∈ t, p c = true
  | [] => ⟨(fun _ c hc => by cases hc), fun _ => .nil⟩
  | c :: t => by
    constructor
    · intro h
      obtain ⟨x, y, h1, h2, h3⟩ := star_cons h
      obtain ⟨d, h4, h5⟩ := cls_iff.1 h2
      cases h4
      intro z hz
      rcases List.mem_cons.1 hz with rfl | hz
      · exact h5
      · rw [h1] at hz
        exact star_cls.1 h3 z hz
    · intro h
      exact Denotes.more (s := [c]) (cls_iff.2 ⟨c, rfl, h c List.mem_cons_self⟩) (star_cls.2 fun z hz => h z (List.mem_cons_of_mem _ hz))

theorem isScaled_iff {t : Text} : isScaled t = true ↔ Denotes (.seq (.cls cDigit) (.seq (.star (.cls cDigit)) (.cls cLetter))) t := by
  cases t with
  | nil =>
    simp only [isScaled, Bool.false_eq_true, false_iff, seq_iff, cls_iff]
    rintro ⟨x, y, h, ⟨c, rfl, -⟩, -⟩
    cases h
  | cons c t =>
    simp only [isScaled, Bool.and_eq_true, isScaled_rest, seq_iff, cls_iff, star_cls]
    constructor
    · rintro ⟨h1, x, d, rfl, h2, h3⟩
      exact ⟨[c], x ++ [d], rfl, ⟨c, rfl, h1⟩, x, [d], rfl, h2, d, rfl, h3⟩
    · rintro ⟨u, v, h, ⟨d, rfl, h1⟩, x, y, rfl, h2, e, rfl, h3⟩
      cases h
      exact ⟨h1, x, e, rfl, h2, h3⟩

/-- A way, by groups. -/
def RB.path : List Nat → RB
  | [] => .eps
  | m :: l => .seq (.cls m) (path l)

/-- Several ways, by groups. -/
def RB.paths : List (List Nat) → RB
  | [] => .none
  | p :: ps => .alt (path p) (paths ps)

/-- The class of a set of groups. -/
def maskClass (γ : UInt8 → Nat) (m : Nat) : CharClass := fun c => Nat.testBit m (γ c)

theorem path_toRE {γ : UInt8 → Nat} : ∀ (l : List Nat), (RB.path l).toRE γ = pathRE (l.map (maskClass γ))
  | [] => rfl
  | m :: l => by
    show RE.seq _ _ = RE.seq _ _
    rw [path_toRE l]
    rfl

theorem paths_toRE {γ : UInt8 → Nat} : ∀ (l : List (List Nat)), (RB.paths l).toRE γ = pathsRE (l.map fun p => p.map (maskClass γ))
  | [] => rfl
  | p :: l => by
    show RE.alt _ _ = RE.alt _ _
    rw [paths_toRE l, path_toRE]

/-- The groups of the classes of datescan.nfa. -/
structure DateMasks where
  (digit pos letter d12 d3 d01 y0 y29 : Nat)

namespace DateMasks
variable (k : DateMasks)

/-- `dayPaths` -/
def day : List (List Nat) := [[k.pos], [k.d12, k.digit], [k.d3, k.d01]]
/-- `yearPaths` -/
def year : List (List Nat) := [[k.y0, k.digit], [k.d3, k.y29], [k.pos, k.digit, k.digit, k.digit]]
/-- `monthPaths` -/
def month : List (List Nat) := [[k.letter, k.letter, k.letter]]
/-- `digitPaths` -/
def digits : List (List Nat) := [[k.digit, k.digit, k.digit, k.digit, k.digit, k.digit], [k.digit, k.digit, k.digit, k.digit, k.digit, k.digit, k.digit, k.digit]]

/-- The types of dates. -/
def types : List (RB × DateType) := [
  (.seq (.cls k.digit) (.seq (.star (.cls k.digit)) (.cls k.letter)), .scaled),
  (.paths k.day, .d), (.paths k.year, .y), (.paths k.digits, .yymmdd), (.paths k.month, .m),
  (.seq (.paths k.day) (.paths k.month), .dm), (.seq (.paths k.month) (.paths k.day), .md),
  (.seq (.paths k.year) (.paths k.month), .ym), (.seq (.paths k.month) (.paths k.year), .my),
  (.seq (.paths k.year) (.seq (.paths k.month) (.paths k.day)), .ymd), (.seq (.paths k.day) (.seq (.paths k.month) (.paths k.year)), .dmy)]

/-- The groups are those of the classes. -/
structure Fit (γ : UInt8 → Nat) : Prop where
  digit : cDigit = maskClass γ k.digit
  pos : cPos = maskClass γ k.pos
  letter : cLetter = maskClass γ k.letter
  d12 : crange 0x31 0x32 = maskClass γ k.d12
  d3 : crange 0x33 0x33 = maskClass γ k.d3
  d01 : crange 0x30 0x31 = maskClass γ k.d01
  y0 : (fun c => c = 0x30 || crange 0x34 0x39 c : CharClass) = maskClass γ k.y0
  y29 : crange 0x32 0x39 = maskClass γ k.y29

variable {k} {γ : UInt8 → Nat} (h : k.Fit γ)
include h

theorem Fit.day {t : Text} : (dayPaths.any fun w => follows w t) = true ↔ Denotes ((RB.paths k.day).toRE γ) t := by
  rw [follows_any, paths_toRE]
  unfold dayPaths DateMasks.day
  rw [h.pos, h.d12, h.digit, h.d3, h.d01]
  rfl

theorem Fit.year {t : Text} : (yearPaths.any fun w => follows w t) = true ↔ Denotes ((RB.paths k.year).toRE γ) t := by
  rw [follows_any, paths_toRE]
  unfold yearPaths DateMasks.year
  rw [h.y0, h.pos, h.digit, h.d3, h.y29]
  rfl

theorem Fit.month {t : Text} : (monthPaths.any fun w => follows w t) = true ↔ Denotes ((RB.paths k.month).toRE γ) t := by
  rw [follows_any, paths_toRE]
  unfold monthPaths DateMasks.month
  rw [h.letter]
  rfl

theorem Fit.digits {t : Text} : (digitPaths.any fun w => follows w t) = true ↔ Denotes ((RB.paths k.digits).toRE γ) t := by
  rw [follows_any, paths_toRE]
  unfold digitPaths DateMasks.digits
  rw [h.digit]
  rfl

theorem Fit.scaled {t : Text} : isScaled t = true ↔ Denotes ((RB.seq (.cls k.digit) (.seq (.star (.cls k.digit)) (.cls k.letter))).toRE γ) t := by
  rw [isScaled_iff, h.digit, h.letter]
  rfl

theorem seq_of {a b : List (List CharClass)} {A B : RB} (ha : ∀ {t}, (a.any fun w => follows w t) = true ↔ Denotes (A.toRE γ) t)
    (hb : ∀ {t}, (b.any fun w => follows w t) = true ↔ Denotes (B.toRE γ) t) {t : Text} :
    ((thenPaths a b).any fun w => follows w t) = true ↔ Denotes ((RB.seq A B).toRE γ) t := by
  rw [follows_then]
  show _ ↔ Denotes (.seq _ _) t
  rw [seq_iff]
  simp only [ha, hb]

end DateMasks

/-- The type of a date is that of an expression it belongs to. -/
theorem DateMasks.Fit.type {k : DateMasks} {γ : UInt8 → Nat} (h : k.Fit γ) (t : Text) :
    (∃ x ∈ k.types, Denotes (x.1.toRE γ) t ∧ discoverType t = x.2) ∨ ((∀ x ∈ k.types, ¬ Denotes (x.1.toRE γ) t) ∧ discoverType t = .failure) := by
  have hp : Pairs (fun (x : List (List CharClass) × DateType) (y : RB × DateType) => x.2 = y.2 ∧ ∀ t, (x.1.any fun w => follows w t) = true ↔ Denotes (y.1.toRE γ) t)
      datePaths k.types.tail :=
    .cons ⟨rfl, fun _ => h.day⟩ (.cons ⟨rfl, fun _ => h.year⟩ (.cons ⟨rfl, fun _ => h.digits⟩ (.cons ⟨rfl, fun _ => h.month⟩
      (.cons ⟨rfl, fun _ => seq_of h h.day h.month⟩ (.cons ⟨rfl, fun _ => seq_of h h.month h.day⟩ (.cons ⟨rfl, fun _ => seq_of h h.year h.month⟩
        (.cons ⟨rfl, fun _ => seq_of h h.month h.year⟩ (.cons ⟨rfl, fun _ => seq_of h h.year (seq_of h h.month h.day)⟩
          (.cons ⟨rfl, fun _ => seq_of h h.day (seq_of h h.month h.year)⟩ .nil)))))))))
  unfold discoverType
  by_cases hs : isScaled t = true
  · rw [if_pos hs]
    exact Or.inl ⟨_, List.mem_cons_self, h.scaled.1 hs, rfl⟩
  · rw [if_neg hs]
    cases hf : datePaths.find? (fun p => p.1.any (fun w => follows w t)) with
    | some x =>
      obtain ⟨y, h1, h2, h3⟩ := pairs_left hp (List.mem_of_find?_eq_some hf)
      exact Or.inl ⟨y, List.mem_cons_of_mem _ h1, (h3 t).1 (List.find?_some (p := fun (p : List (List CharClass) × DateType) => p.1.any fun w => follows w t) hf), h2⟩
    | none =>
      refine Or.inr ⟨?_, rfl⟩
      intro y hy hd
      rcases List.mem_cons.1 hy with rfl | hy
      · exact hs (h.scaled.2 hd)
      · obtain ⟨x, h1, h2, h3⟩ := pairs_right hp hy
        exact List.find?_eq_none.1 hf x h1 ((h3 t).2 hd)

end Mairix
