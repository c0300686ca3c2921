import Verif.Proofs.Glob
import Verif.Proofs.Colons

/-!
# Wildcard patterns (C26) and colon separated lists (C27)
-/

namespace Mairix
open Spec

/-- **C26** (for patterns of up to 31 parts besides stars). Any pattern made of characters, `?`, classes, `*` and `**` is compiled
without a fault, and then matches exactly the texts it should. Missing: longer patterns (see `C26_long_violation`); classes without an end (see
`C26_open_class_violation`); ranges with characters that are not ASCII. -/
theorem C26_match_partial {p : List Wild} (ho : WildOk p) (hn : solid p ≤ 31) :
    ∃ g, makeGlobber (wildText p) = .ok g ∧ ∀ s, isGlobMatch g s = true ↔ WildMatch p s := by
  obtain ⟨g, e, hf⟩ := makeGlobber_fits ho hn
  exact ⟨g, e, isGlobMatch_iff hf⟩

/-- The pattern `x/**[]a-f-]*?` . -/
def examplePattern : List Wild :=
  [.char 0x78, .char 0x2f, .twoStars, .cls ⟨true, [.range 0x61 0x66], true⟩, .star, .question]

example : wildText examplePattern = bs "x/**[]a-f-]*?" := by decide

example : WildOk examplePattern ∧ solid examplePattern ≤ 31 := by
  simp [examplePattern, WildOk, Wild.ok, ClassItem.ok, solid]

example : (makeGlobber (bs "x/**[]a-f-]*?")).map (fun g => [bs "x/y/zez!", bs "x/y/ze/z!", bs "x/y/z]!", bs "x/y/zg!"].map (isGlobMatch g)) =
    .ok [true, false, true, false] := by decide +kernel

theorem globLoop_long : ∀ (p : List Wild), WildOk p → ∀ (n fuel : Nat) (g : Globber), 32 ≤ n + solid p → (wildText p).length < fuel →
    globLoop fuel n g (wildText p) = .error .overflow ∨ ∃ m g', 32 ≤ m ∧ globLoop fuel n g (wildText p) = .ok (m, g')
  | [], _, n, fuel + 1, g, hn, _ => .inr ⟨n, g, hn, rfl⟩
  | w :: p, _, n, 0, g, _, hl => by omega
  | w :: p, ho, n, fuel + 1, g, hn, hl => by
    obtain ⟨hw, ho'⟩ := wildOk_tail ho
    have hne : ∃ c t, wildText (w :: p) = c :: t := by
      cases w <;> exact ⟨_, _, rfl⟩
    by_cases h32 : n < 32
    · cases w with
      | char c =>
        have : wildText (.char c :: p) = c :: wildText p := rfl
        rw [this] at hl ⊢
        rw [globLoop]
        simp only [bitMask, h32, if_true, bind, Except.bind]
        rw [if_neg hw.1, if_neg hw.2.2, if_neg hw.2.1]
        simp only [solid] at hn
        simp only [List.length_cons] at hl
        exact globLoop_long p ho' (n + 1) fuel _ (by omega) (by omega)
      | question =>
        have : wildText (.question :: p) = 0x3f :: wildText p := rfl
        rw [this] at hl ⊢
        rw [globLoop]
        simp only [bitMask, h32, if_true, bind, Except.bind]
        rw [if_neg (by decide), if_neg (by decide)]
        simp only [solid] at hn
        simp only [List.length_cons] at hl
        exact globLoop_long p ho' (n + 1) fuel _ (by omega) (by omega)
      | cls k =>
        have : wildText (.cls k :: p) = 0x5b :: (k.text.drop 1 ++ wildText p) := rfl
        obtain ⟨g1, e1, ha⟩ := charClass_text (mask := 1#32 <<< n) hw g (wildText p)
        rw [this] at hl ⊢
        rw [globLoop]
        simp only [bitMask, h32, if_true, bind, Except.bind]
        rw [if_neg (by decide)]
        simp only [e1]
        simp only [solid] at hn
        simp only [List.length_cons, List.length_append] at hl
        exact globLoop_long p ho' (n + 1) fuel _ (by omega) (by omega)
      | twoStars =>
        have : wildText (.twoStars :: p) = 0x2a :: 0x2a :: wildText p := rfl
        rw [this] at hl ⊢
        rw [globLoop]
        simp only [bitMask, h32, if_true, bind, Except.bind]
        simp only [solid] at hn
        simp only [List.length_cons] at hl
        exact globLoop_long p ho' n fuel _ (by omega) (by omega)
      | star =>
        have hh : (wildText p).head? ≠ some 0x2a := by
          refine wildText_head (fun q => ⟨?_, ?_⟩) ho'
          · rintro rfl; exact ho
          · rintro rfl; exact ho
        have : wildText (.star :: p) = 0x2a :: wildText p := rfl
        rw [this] at hl ⊢
        rw [globLoop]
        simp only [bitMask, h32, if_true, bind, Except.bind]
        simp only [solid] at hn
        simp only [List.length_cons] at hl
        split
        · rename_i heq; rw [heq] at hh; simp at hh
        · exact globLoop_long p ho' n fuel _ (by omega) (by omega)
    · obtain ⟨c, t, e⟩ := hne
      rw [e, globLoop]
      simp [bitMask, h32, bind, Except.bind]

/-- Every pattern with 32 parts or more besides stars shifts a number by more bits than it has, which is undefined. (No bound is checked, and the
manual states none; the path of a folder is easily longer.) -/
theorem C26_long_violation {p : List Wild} (ho : WildOk p) (hn : 32 ≤ solid p) : makeGlobber (wildText p) = .error .overflow := by
  rcases globLoop_long p ho 0 ((wildText p).length + 1) ⟨fun _ => 0#32, 0#32, 0#32, 0#32⟩ (by omega) (by omega) with e | ⟨m, g', hm, e⟩
  · simp only [makeGlobber, e, bind, Except.bind]
  · simp only [makeGlobber, e, bind, Except.bind, bitMask, show ¬ m < 32 by omega, if_false]

/-- For example an ordinary path. -/
example : (makeGlobber (bs "/home/kim/Mail/lists/development")).map (fun _ => ()) = .error .overflow := by decide +kernel

/-- A `[` without `]` makes the program read beyond the end of the pattern. -/
theorem C26_open_class_violation : (makeGlobber (bs "lists[1")).map (fun _ => ()) = .error .outOfBounds := by decide +kernel

/-- In `[a-e-z]` the second range is taken, against the comment in the code (glob.c:76) that means to avoid it: `-` is not in the class, but `k` is. -/
theorem C26_double_range_violation : 
    (makeGlobber (bs "[a-e-z]")).map (fun g => (isGlobMatch g (bs "k"), isGlobMatch g (bs "-"))) = .ok (true, false) := by decide +kernel

/-- **C27**. Any text is split, in one way, at the colons that have no backslash before them; the items are the pieces with `\:` replaced
by `:`. An empty piece at the end is not an item, unless it is the only piece. -/
theorem C27_split (s : Text) : ∃ l, SplitsAtColons s l ∧ (∀ l', SplitsAtColons s l' → l' = l) ∧ splitOnColons s = .ok ((dropEmptyLast l).map unescape) := by
  obtain ⟨l, h, _, e⟩ := splitLoop_ok (s.length + 1) s (by omega)
  exact ⟨l, h, fun l' h' => splitsAtColons_unique h' h, e⟩

/-- `\::a\:b::c:` -/
example : splitOnColons (bs "\\::a\\:b::c:") = .ok [bs ":", bs "a:b", bs "", bs "c"] := by decide +kernel

/-- **C27** (round trip). Items whose colons are escaped and that are joined by colons are given back, if the last of them is not empty and none before the last ends in
a backslash. Missing: a backslash at the end of an item; it would need an escape, which there is not (see `C27_backslash_violation`). -/
theorem C27_roundtrip_partial {l : List Text} {t : Text} (hl : ∀ x ∈ l, x.getLast? ≠ some 0x5c) (ht : t ≠ [] ∨ l = []) :
    splitOnColons (joinColons (l ++ [t])) = .ok (l ++ [t]) := by
  rw [splitOnColons_ok (splits_join (l ++ [t]) (by simp) (by simpa using hl))]
  have : dropEmptyLast ((l ++ [t]).map escape) = (l ++ [t]).map escape := by
    unfold dropEmptyLast
    rw [if_neg]
    rintro ⟨h1, h2⟩
    simp only [List.map_append, List.map_cons, List.map_nil, List.getLast?_append, List.getLast?_singleton, Option.some_or, Option.some.injEq] at h2
    rw [escape_eq_nil] at h2
    rcases ht with h | rfl
    · exact h h2
    · simp at h1
  rw [this, List.map_map]
  congr 1
  conv => rhs; rw [← List.map_id (l ++ [t])]
  exact List.map_congr_left fun x _ => unescape_escape x

example : (∀ x ∈ [bs "a:b", bs "", bs ":"], x.getLast? ≠ some 0x5c) ∧ joinColons ([bs "a:b", bs "", bs ":"] ++ [bs "c\\"]) = bs "a\\:b::\\::c\\" := by decide

/-- The two items `a\` and `b` cannot be written as a list: they become the one item `a:b`. -/
theorem C27_backslash_violation : splitOnColons (joinColons [bs "a\\", bs "b"]) = .ok [bs "a:b"] := by decide +kernel

/-- **C26** and **C27** together: the list of patterns in the configuration (`omit`) matches a path iff one of its patterns does. -/
theorem C26_list_partial {ps : List (List Wild)} {q : List Wild} (ho : ∀ p ∈ ps ++ [q], WildOk p ∧ solid p ≤ 31)
    (hb : ∀ p ∈ ps, (wildText p).getLast? ≠ some 0x5c) (hq : q ≠ []) :
    ∃ ga, globberArray (joinColons ((ps ++ [q]).map wildText)) = .ok ga ∧
      ∀ s, isGlobberArrayMatch ga s = true ↔ ∃ p ∈ ps ++ [q], WildMatch p s := by
  have hqt : wildText q ≠ [] := by
    cases q with
    | nil => exact absurd rfl hq
    | cons w q => cases w <;> simp [wildText, Wild.text, CharClass.text, bs]
  have e1 : splitOnColons (joinColons ((ps ++ [q]).map wildText)) = .ok ((ps ++ [q]).map wildText) := by
    rw [List.map_append]
    refine C27_roundtrip_partial ?_ (.inl hqt)
    intro x hx
    obtain ⟨p, hp, rfl⟩ := List.mem_map.1 hx
    exact hb p hp
  have e2 : ∀ (l : List (List Wild)), (∀ p ∈ l, WildOk p ∧ solid p ≤ 31) →
      ∃ ga, makeGlobbers (l.map wildText) = .ok ga ∧ ∀ s, isGlobberArrayMatch ga s = true ↔ ∃ p ∈ l, WildMatch p s := by
    intro l
    induction l with
    | nil => intro _; exact ⟨[], rfl, by simp [isGlobberArrayMatch]⟩
    | cons p l ih =>
      intro h
      obtain ⟨ga, e, hm⟩ := ih fun x hx => h x (List.mem_cons_of_mem _ hx)
      obtain ⟨g, eg, hg⟩ := C26_match_partial (h p (List.mem_cons_self ..)).1 (h p (List.mem_cons_self ..)).2
      refine ⟨g :: ga, by simp [makeGlobbers, eg, e, bind, Except.bind], fun s => ?_⟩
      have := hm s
      simp only [isGlobberArrayMatch] at this
      simp [isGlobberArrayMatch, hg, this]
  obtain ⟨ga, e, h⟩ := e2 _ ho
  exact ⟨ga, by simp only [globberArray, e1, bind, Except.bind]; exact e, h⟩

example : (∀ p ∈ [examplePattern] ++ [[Wild.char 0x3a, .star]], WildOk p ∧ solid p ≤ 31) ∧
    (∀ p ∈ [examplePattern], (wildText p).getLast? ≠ some 0x5c) ∧
    joinColons (([examplePattern] ++ [[Wild.char 0x3a, .star]]).map wildText) = bs "x/**[]a-f-]*?:\\:*" := by
  refine ⟨by simp [examplePattern, WildOk, Wild.ok, ClassItem.ok, solid], by decide, by decide⟩

end Mairix
