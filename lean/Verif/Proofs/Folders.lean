import Verif.Spec.Folders
import Verif.Props.Glob
import Verif.Proofs.CullFuel

/-!
# The folders and messages found are those the configuration means
-/

namespace Mairix
open Spec

theorem child_slash (a b : Text) : a ++ bs "/" ++ b = child a b := by simp [child, bs]

theorem isDots_iff {n : Text} : isDots n = false ↔ n ≠ bs "." ∧ n ≠ bs ".." := by simp [isDots]

theorem validMhLoop_iff (x : Text) : validMhLoop x = true ↔ ∃ ds : Text, (∀ c ∈ ds, isDigit c = true) ∧ (x = ds ∨ x = ds ++ bs ".") := by
  induction x with
  | nil => simp only [validMhLoop, true_iff]; exact ⟨[], by simp, .inl rfl⟩
  | cons c x ih =>
    simp only [validMhLoop]
    by_cases h : isDigit c = true
    · rw [if_pos h, ih]
      constructor
      · rintro ⟨ds, h1, h2⟩
        refine ⟨c :: ds, by simpa [h] using h1, ?_⟩
        rcases h2 with rfl | rfl
        · exact .inl rfl
        · exact .inr rfl
      · rintro ⟨ds, h1, h2⟩
        cases ds with
        | nil =>
          rcases h2 with h2 | h2
          · cases h2
          · simp [bs] at h2
            rw [h2.1] at h
            exact absurd h (by decide)
        | cons d ds =>
          refine ⟨ds, fun y hy => h1 y (List.mem_cons_of_mem _ hy), ?_⟩
          rcases h2 with h2 | h2
          · simp at h2; exact .inl h2.2
          · simp at h2; exact .inr h2.2
    · rw [if_neg h]
      simp only [Bool.and_eq_true, beq_iff_eq, List.isEmpty_iff]
      constructor
      · rintro ⟨rfl, rfl⟩
        exact ⟨[], by simp, .inr rfl⟩
      · rintro ⟨ds, h1, h2⟩
        cases ds with
        | nil =>
          rcases h2 with h2 | h2
          · cases h2
          · simpa [bs] using h2
        | cons d ds =>
          exfalso
          apply h
          have := h1 d (List.mem_cons_self ..)
          rcases h2 with h2 | h2
          · simp at h2; rw [h2.1]; exact this
          · simp at h2; rw [h2.1]; exact this

theorem validMh_iff (x : Text) : validMh x = true ↔ MhName x := by
  simp only [validMh, Bool.and_eq_true, Bool.not_eq_true', List.isEmpty_eq_false_iff, validMhLoop_iff, MhName]
  constructor
  · rintro ⟨h0, ds, h1, h2⟩
    refine ⟨ds, h1, ?_⟩
    rcases h2 with rfl | h2
    · exact .inl ⟨rfl, h0⟩
    · exact .inr h2
  · rintro ⟨ds, h1, ⟨rfl, h2⟩ | rfl⟩
    · exact ⟨h2, x, h1, .inl rfl⟩
    · exact ⟨by simp [bs], ds, h1, .inr rfl⟩

theorem hasChild_dir {fs : Fs} {p n : Text} : hasChild fs .directory p n = true ↔ IsDir fs (child p n) := by
  simp only [hasChild, IsDir]
  cases h : fs.stat (child p n) with
  | none => simp
  | some sb => simp

theorem hasChild_file {fs : Fs} {p n : Text} : hasChild fs .regular p n = true ↔ IsFile fs (child p n) := by
  simp only [hasChild, IsFile]
  cases h : fs.stat (child p n) with
  | none => simp
  | some sb => simp

theorem filterFolder_iff {fs : Fs} {ft : FolderType} {p : Text} {sb : FStat} (h : fs.stat p = some sb) :
    filterFolder fs ft p sb = true ↔ IsFolder fs ft p := by
  have hd : sb.kind = .directory ↔ IsDir fs p := by simp [IsDir, h]
  have hf : sb.kind = .regular ↔ IsFile fs p := by simp [IsFile, h]
  cases ft with
  | maildir =>
    simp only [filterFolder, IsFolder, Bool.and_eq_true, beq_iff_eq, hasChild_dir, hd, and_assoc]
    rfl
  | mh =>
    simp only [filterFolder, IsFolder, Bool.and_eq_true, beq_iff_eq, hd, List.any_eq_true, hasChild_file, child_slash]
    rfl
  | mbox => simp only [filterFolder, IsFolder, beq_iff_eq, hf]

/-- The path is absolute or begins with the folder base, as the item does. -/
def UnderBase (s : Setting) (i : FolderItem) (p : Text) : Prop := i.absolute ∨ ∃ r, p = child s.base r

/-- The context in which an item is expanded. -/
structure Ctx (s : Setting) (ft : FolderType) (i : FolderItem) (x : Expand) : Prop where
  fs : x.fs = s.fs
  ft : x.ft = ft
  globs : ∀ n, isGlobberArrayMatch x.omitGlobs n = true ↔ ∃ w ∈ s.omits, WildMatch w n
  abs : i.absolute → x.baseLen = 0
  rel : ¬ i.absolute → x.baseLen = s.base.length + 1

theorem omits_iff {s : Setting} {ft : FolderType} {i : FolderItem} {x : Expand} (hx : Ctx s ft i x) {p : Text} (hp : UnderBase s i p) :
    x.omits p = true ↔ Omitted s i p := by
  simp only [Expand.omits, hx.globs, Omitted]
  by_cases ha : i.absolute
  · rw [hx.abs ha, List.drop_zero]
    constructor
    · intro h; exact ⟨p, .absolute ha, h⟩
    · rintro ⟨n, h1, h2⟩
      cases h1 with
      | absolute _ => exact h2
      | relative h => exact absurd ha h
  · rw [hx.rel ha]
    rcases hp with hp | ⟨r, rfl⟩
    · exact absurd hp ha
    · have : (child s.base r).drop (s.base.length + 1) = r := by simp [child]
      rw [this]
      constructor
      · intro h; exact ⟨r, by rw [← child_slash]; exact .relative ha, h⟩
      · rintro ⟨n, h1, h2⟩
        generalize hc : child s.base r = q at h1
        cases h1 with
        | absolute h => exact absurd h ha
        | relative _ =>
          rw [child_slash] at hc
          simp only [child, List.append_cancel_left_eq, List.cons.injEq, true_and] at hc
          rw [hc]; exact h2

theorem UnderBase.child {s : Setting} {i : FolderItem} {p : Text} (hp : UnderBase s i p) (n : Text) : UnderBase s i (child p n) := by
  rcases hp with hp | ⟨r, rfl⟩
  · exact .inl hp
  · exact .inr ⟨Mairix.child r n, by simp [Mairix.child]⟩

theorem mem_shallow {s : Setting} {ft : FolderType} {i : FolderItem} {x : Expand} (hx : Ctx s ft i x) {p : Text} {sb : FStat} (hs : s.fs.stat p = some sb)
    (hp : UnderBase s i p) (q : Text) : q ∈ appendShallow x p sb ↔ q = p ∧ IsFolder s.fs ft p ∧ ¬ Omitted s i p := by
  simp only [appendShallow, hx.fs, hx.ft]
  have h1 := filterFolder_iff (ft := ft) hs
  have h2 := omits_iff hx hp
  by_cases h : filterFolder s.fs ft p sb = true ∧ ¬ x.omits p = true
  · rw [if_pos (by simpa using h)]
    simp only [List.mem_singleton]
    rw [h1, h2] at h
    simp [h]
  · rw [if_neg (by simpa using h)]
    rw [h1, h2] at h
    simp only [List.not_mem_nil, false_iff]
    intro hc; exact h hc.2

theorem ignored_iff {s : Setting} {ft : FolderType} {i : FolderItem} {d name : Text} {m : Bool} (hm : m = true ↔ IsFolder s.fs ft d ∧ ¬ Omitted s i d) :
    ignored ft m name = true ↔ Skipped s ft i d name := by
  cases ft with
  | maildir => simp [ignored, Skipped, hm, or_assoc]
  | mh => simp [ignored, Skipped, validMh_iff]
  | mbox => simp [ignored, Skipped]

theorem appendDeep_ok {s : Setting} {ft : FolderType} {i : FolderItem} {x : Expand} (hx : Ctx s ft i x) {N : Nat} (hN : PathMax s.fs N) :
    ∀ (fuel : Nat) (path : Text) (sb : FStat), N < path.length + fuel → s.fs.stat path = some sb → UnderBase s i path →
      ∃ l, appendDeep x fuel path sb = .ok l ∧ ∀ p, p ∈ l ↔ Below s ft i path p ∧ IsFolder s.fs ft p ∧ ¬ Omitted s i p
  | 0, path, sb, hf, hs, _ => by rw [hN path (by omega)] at hs; cases hs
  | fuel + 1, path, sb, hf, hs, hu => by
    have hsh := mem_shallow hx hs hu
    by_cases hd : sb.kind = .directory
    · cases hr : s.fs.readdir path with
      | none =>
        refine ⟨appendShallow x path sb, by simp [appendDeep, hd, hx.fs, hr], fun p => ?_⟩
        rw [hsh]
        constructor
        · rintro ⟨rfl, h⟩; exact ⟨.self _, h⟩
        · rintro ⟨hb, h⟩
          cases hb with
          | self => exact ⟨rfl, h⟩
          | down _ he => obtain ⟨⟨names, e, _⟩, _⟩ := he; rw [hr] at e; cases e
      | some names =>
        have hm : (!(appendShallow x path sb).isEmpty) = true ↔ IsFolder s.fs ft path ∧ ¬ Omitted s i path := by
          rw [Bool.not_eq_true', List.isEmpty_eq_false_iff]
          constructor
          · intro h
            obtain ⟨y, hy⟩ := List.exists_mem_of_ne_nil _ h
            exact ((hsh y).1 hy).2
          · intro h e
            have := (hsh path).2 ⟨rfl, h⟩
            rw [e] at this; cases this
        have key : ∀ ns : List Text, ∃ l, deepEntries x (appendDeep x fuel) path (!(appendShallow x path sb).isEmpty) ns = .ok l ∧
            ∀ p, p ∈ l ↔ ∃ name ∈ ns, (name ≠ bs "." ∧ name ≠ bs "..") ∧ ¬ Omitted s i (child path name) ∧ ¬ Skipped s ft i path name ∧
              (IsDir s.fs (child path name) ∨ IsFile s.fs (child path name)) ∧ Below s ft i (child path name) p ∧ IsFolder s.fs ft p ∧ ¬ Omitted s i p := by
          intro ns
          induction ns with
          | nil => exact ⟨[], rfl, by simp⟩
          | cons name ns ih =>
            obtain ⟨l, e, hl⟩ := ih
            have huc := hu.child name
            rw [deepEntries]
            by_cases hskip : (isDots name || x.omits (child path name) || ignored x.ft (!(appendShallow x path sb).isEmpty) name) = true
            · rw [if_pos hskip]
              refine ⟨l, e, fun p => ?_⟩
              rw [hl]
              simp only [Bool.or_eq_true, omits_iff hx huc, hx.ft, ignored_iff hm] at hskip
              constructor
              · rintro ⟨n, h1, h2⟩; exact ⟨n, List.mem_cons_of_mem _ h1, h2⟩
              · rintro ⟨n, h1, h2, h3, h4, h5⟩
                rcases List.mem_cons.1 h1 with rfl | h1
                · rcases hskip with (h | h) | h
                  · rw [isDots_iff.2 h2] at h; cases h
                  · exact absurd h h3
                  · exact absurd h h4
                · exact ⟨n, h1, h2, h3, h4, h5⟩
            · rw [if_neg hskip]
              simp only [Bool.or_eq_true, omits_iff hx huc, hx.ft, ignored_iff hm, not_or, Bool.not_eq_true, isDots_iff] at hskip
              obtain ⟨⟨hk1, hk2⟩, hk3⟩ := hskip
              rw [hx.fs]
              cases hst : s.fs.stat (child path name) with
              | none =>
                refine ⟨l, e, fun p => ?_⟩
                rw [hl]
                constructor
                · rintro ⟨n, h1, h2⟩; exact ⟨n, List.mem_cons_of_mem _ h1, h2⟩
                · rintro ⟨n, h1, h2, h3, h4, h5, h6⟩
                  rcases List.mem_cons.1 h1 with rfl | h1
                  · exfalso
                    rcases h5 with ⟨sb', h5, _⟩ | ⟨sb', h5, _⟩ <;> rw [hst] at h5 <;> cases h5
                  · exact ⟨n, h1, h2, h3, h4, h5, h6⟩
              | some sb2 =>
                have hsplit : ∀ (here : List Text), (∀ p, p ∈ here ↔ Below s ft i (child path name) p ∧ IsFolder s.fs ft p ∧ ¬ Omitted s i p) →
                    (IsDir s.fs (child path name) ∨ IsFile s.fs (child path name)) →
                    ∀ p, p ∈ here ++ l ↔ ∃ n ∈ name :: ns, (n ≠ bs "." ∧ n ≠ bs "..") ∧ ¬ Omitted s i (child path n) ∧ ¬ Skipped s ft i path n ∧
                      (IsDir s.fs (child path n) ∨ IsFile s.fs (child path n)) ∧ Below s ft i (child path n) p ∧ IsFolder s.fs ft p ∧ ¬ Omitted s i p := by
                  intro here hh hk p
                  rw [List.mem_append, hh, hl]
                  simp only [List.mem_cons, exists_eq_or_imp]
                  refine or_congr ?_ Iff.rfl
                  constructor
                  · intro h; exact ⟨hk1, hk2, hk3, hk, h⟩
                  · intro h; exact h.2.2.2.2
                dsimp only
                cases hkind : sb2.kind with
                | regular =>
                  refine ⟨appendShallow x (child path name) sb2 ++ l, by simp only [e, bind, Except.bind], hsplit _ (fun p => ?_) (.inr ⟨sb2, hst, hkind⟩)⟩
                  rw [mem_shallow hx hst huc]
                  constructor
                  · rintro ⟨rfl, h⟩; exact ⟨.self _, h⟩
                  · rintro ⟨hb, h⟩
                    cases hb with
                    | self => exact ⟨rfl, h⟩
                    | down hdir => obtain ⟨sb', e1, e2⟩ := hdir; rw [hst] at e1; cases e1; rw [hkind] at e2; cases e2
                | directory =>
                  obtain ⟨here, e2, hh⟩ := appendDeep_ok hx hN fuel (child path name) sb2 (by simp [child]; omega) hst huc
                  exact ⟨here ++ l, by simp only [e, e2, bind, Except.bind], hsplit _ hh (.inl ⟨sb2, hst, hkind⟩)⟩
                | other =>
                  refine ⟨l, by simpa using e, fun p => ?_⟩
                  rw [hl]
                  constructor
                  · rintro ⟨n, h1, h2⟩; exact ⟨n, List.mem_cons_of_mem _ h1, h2⟩
                  · rintro ⟨n, h1, h2, h3, h4, h5, h6⟩
                    rcases List.mem_cons.1 h1 with rfl | h1
                    · exfalso
                      rcases h5 with ⟨sb', h5, h7⟩ | ⟨sb', h5, h7⟩ <;> rw [hst] at h5 <;> cases h5 <;> rw [hkind] at h7 <;> cases h7
                    · exact ⟨n, h1, h2, h3, h4, h5, h6⟩
        obtain ⟨l, e, hl⟩ := key names
        refine ⟨appendShallow x path sb ++ l, by simp only [appendDeep, hd, if_true, hx.fs, hr, e, bind, Except.bind], fun p => ?_⟩
        rw [List.mem_append, hsh, hl]
        constructor
        · rintro (⟨rfl, h⟩ | ⟨n, h1, h2, h3, h4, h5, h6, h7⟩)
          · exact ⟨.self _, h⟩
          · rw [← child_slash] at h3 h5 h6
            exact ⟨.down ⟨sb, hs, hd⟩ ⟨⟨names, hr, h1⟩, h2⟩ h3 h4 h5 h6, h7⟩
        · rintro ⟨hb, h⟩
          cases hb with
          | self => exact .inl ⟨rfl, h⟩
          | @down _ n _ _ he h3 h4 h5 h6 =>
            obtain ⟨⟨names', e', h1⟩, h2⟩ := he
            rw [hr] at e'
            cases e'
            rw [child_slash] at h3 h5 h6
            exact .inr ⟨n, h1, h2, h3, h4, h5, h6, h⟩
    · refine ⟨appendShallow x path sb, by simp [appendDeep, hd], fun p => ?_⟩
      rw [hsh]
      constructor
      · rintro ⟨rfl, h⟩; exact ⟨.self _, h⟩
      · rintro ⟨hb, h⟩
        cases hb with
        | self => exact ⟨rfl, h⟩
        | down hdir => obtain ⟨sb', e1, e2⟩ := hdir; rw [hs] at e1; cases e1; exact absurd e2 hd

/-- What is found from one path on. -/
theorem appendFolder_ok {s : Setting} {ft : FolderType} {i : FolderItem} {x : Expand} (hx : Ctx s ft i x) {N fuel : Nat} (hN : PathMax s.fs N) (hf : N < fuel)
    {path : Text} {sb : FStat} (hs : s.fs.stat path = some sb) (hu : UnderBase s i path) :
    ∃ l, appendFolder x fuel i.deep path sb = .ok l ∧
      ∀ p, p ∈ l ↔ ((i.deep = true ∧ Below s ft i path p) ∨ (i.deep = false ∧ p = path)) ∧ IsFolder s.fs ft p ∧ ¬ Omitted s i p := by
  cases hd : i.deep with
  | true =>
    obtain ⟨l, e, hl⟩ := appendDeep_ok hx hN fuel path sb (by omega) hs hu
    exact ⟨l, by simpa [appendFolder] using e, fun p => by rw [hl]; simp⟩
  | false =>
    refine ⟨appendShallow x path sb, by simp [appendFolder], fun p => ?_⟩
    rw [mem_shallow hx hs hu]
    simp only [Bool.false_eq_true, false_and, true_and, false_or]
    constructor
    · rintro ⟨rfl, h⟩; exact ⟨rfl, h⟩
    · rintro ⟨rfl, h⟩; exact ⟨rfl, h⟩

theorem wildEntries_ok {s : Setting} {ft : FolderType} {i : FolderItem} {x : Expand} (hx : Ctx s ft i x) {N fuel : Nat} (hN : PathMax s.fs N) (hf : N < fuel)
    {w : List Wild} {gg : Globber} (hg : ∀ t, isGlobMatch gg t = true ↔ WildMatch w t) {dir : Text} (hu : ∀ n, UnderBase s i (child dir n)) :
    ∀ ns : List Text, ∃ l, wildEntries x fuel i.deep gg dir ns = .ok l ∧
      ∀ p, p ∈ l ↔ ∃ name ∈ ns, (name ≠ bs "." ∧ name ≠ bs "..") ∧ WildMatch w name ∧ ¬ Omitted s i (child dir name) ∧ Exists s.fs (child dir name) ∧
        ((i.deep = true ∧ Below s ft i (child dir name) p) ∨ (i.deep = false ∧ p = child dir name)) ∧ IsFolder s.fs ft p ∧ ¬ Omitted s i p := by
  intro ns
  induction ns with
  | nil => exact ⟨[], rfl, by simp⟩
  | cons name ns ih =>
    obtain ⟨l, e, hl⟩ := ih
    have huc := hu name
    rw [wildEntries]
    by_cases hskip : (isDots name || !isGlobMatch gg name || x.omits (child dir name)) = true
    · rw [if_pos hskip]
      refine ⟨l, e, fun p => ?_⟩
      rw [hl]
      simp only [Bool.or_eq_true, omits_iff hx huc, Bool.not_eq_true'] at hskip
      constructor
      · rintro ⟨n, h1, h2⟩; exact ⟨n, List.mem_cons_of_mem _ h1, h2⟩
      · rintro ⟨n, h1, h2, h3, h4, h5⟩
        rcases List.mem_cons.1 h1 with rfl | h1
        · rcases hskip with (h | h) | h
          · rw [isDots_iff.2 h2] at h; cases h
          · rw [(hg n).2 h3] at h; cases h
          · exact absurd h h4
        · exact ⟨n, h1, h2, h3, h4, h5⟩
    · rw [if_neg hskip]
      simp only [Bool.or_eq_true, omits_iff hx huc, not_or, Bool.not_eq_true, isDots_iff, Bool.not_eq_false', hg] at hskip
      obtain ⟨⟨hk1, hk2⟩, hk3⟩ := hskip
      rw [hx.fs]
      cases hst : s.fs.stat (child dir name) with
      | none =>
        refine ⟨l, e, fun p => ?_⟩
        rw [hl]
        constructor
        · rintro ⟨n, h1, h2⟩; exact ⟨n, List.mem_cons_of_mem _ h1, h2⟩
        · rintro ⟨n, h1, h2, h3, h4, h5, h6⟩
          rcases List.mem_cons.1 h1 with rfl | h1
          · obtain ⟨sb, h5⟩ := h5; rw [hst] at h5; cases h5
          · exact ⟨n, h1, h2, h3, h4, h5, h6⟩
      | some sb =>
        obtain ⟨here, e2, hh⟩ := appendFolder_ok hx hN hf hst huc
        refine ⟨here ++ l, by simp only [e, e2, bind, Except.bind], fun p => ?_⟩
        rw [List.mem_append, hh, hl]
        simp only [List.mem_cons, exists_eq_or_imp]
        refine or_congr ?_ Iff.rfl
        constructor
        · intro h; exact ⟨hk1, hk2, hk3, ⟨sb, hst⟩, h⟩
        · intro h; exact h.2.2.2.2

/-! ## One item -/

theorem splitLastSlash_child {D L : Text} (h : (0x2f : UInt8) ∉ L) : splitLastSlash (child D L) = some (D, L) := by
  have hw : ((child D L).reverse.takeWhile (· != 0x2f)).reverse = L := by
    simp only [child, List.reverse_append, List.reverse_cons, List.append_assoc]
    rw [List.takeWhile_append_of_pos]
    · simp
    · intro a ha
      simp only [List.mem_reverse] at ha
      simp only [bne_iff_ne]
      rintro rfl; exact h ha
  simp only [splitLastSlash, hw]
  rw [if_neg]
  · have : (child D L).length - L.length - 1 = D.length := by simp [child]; omega
    rw [this]; simp [child]
  · simp [child]; omega

theorem isWild_wild {w : List Wild} (h : ∃ x ∈ w, ∀ c, x ≠ Wild.char c) : isWild (wildText w) = true := by
  obtain ⟨x, hx, hc⟩ := h
  simp only [isWild, List.any_eq_true]
  have : ∀ c, c ∈ x.text → c ∈ wildText w := fun c h => List.mem_flatMap.2 ⟨x, hx, h⟩
  cases x with
  | char c => exact absurd rfl (hc c)
  | question => exact ⟨0x3f, this _ (by decide), by decide⟩
  | cls k => exact ⟨0x5b, this _ (by simp [Wild.text, CharClass.text, bs]), by decide⟩
  | star => exact ⟨0x2a, this _ (by decide), by decide⟩
  | twoStars => exact ⟨0x2a, this _ (by decide), by decide⟩

theorem isWild_name {t : Text} (h : ∀ c ∈ t, c ≠ 0x5b ∧ c ≠ 0x2a ∧ c ≠ 0x3f) : isWild t = false := by
  simp only [isWild, List.any_eq_false, Bool.or_eq_true, beq_iff_eq, not_or]
  intro c hc
  exact ⟨⟨(h c hc).1, (h c hc).2.1⟩, (h c hc).2.2⟩

theorem item_head {i : FolderItem} (hok : i.ok) : (i.text.head? == some 0x2f) = true ↔ i.absolute := by
  obtain ⟨h1, _⟩ := hok
  simp only [FolderItem.text, FolderItem.absolute, beq_iff_eq]
  cases hd : i.dir with
  | none =>
    simp only [List.nil_append, reduceCtorEq, false_and, exists_false, iff_false]
    intro h
    cases hl : i.last.text with
    | nil =>
      rw [hl] at h
      cases hdp : i.deep <;> simp [hdp, bs] at h
    | cons c t =>
      rw [hl] at h h1
      simp at h
      exact h1 (by rw [h]; exact List.mem_cons_self ..)
  | some d =>
    simp only [Option.some.injEq, exists_eq_left']
    cases d with
    | nil => simp [bs]
    | cons c t =>
      simp only [List.cons_append, List.head?_cons, Option.some.injEq, reduceCtorEq, List.cons.injEq, false_or]
      constructor
      · rintro rfl; exact ⟨t, rfl, rfl⟩
      · rintro ⟨_, h, _⟩; exact h

theorem handleOnePath_ok {s : Setting} {ft : FolderType} {i : FolderItem} {og : List Globber} (hok : i.ok)
    (hog : ∀ n, isGlobberArrayMatch og n = true ↔ ∃ w ∈ s.omits, WildMatch w n) {N fuel : Nat} (hN : PathMax s.fs N) (hf : N < fuel) :
    ∃ l, handleOnePath s.fs ft og fuel s.base i.text = .ok l ∧ ∀ p, p ∈ l ↔ Denoted s ft i p := by
  -- the directory
  obtain ⟨D, hD, hfull, hub⟩ : ∃ D, (∀ d, i.InDir s.base d ↔ d = D) ∧
      (if (i.text.head? == some 0x2f) = true then i.text else child s.base i.text) = child D (i.last.text ++ if i.deep then bs "..." else []) ∧
      (∀ n, UnderBase s i (child D n)) := by
    by_cases ha : i.absolute
    · obtain ⟨d, hd, hd'⟩ := ha
      have ha : i.absolute := ⟨d, hd, hd'⟩
      refine ⟨d, fun d' => ⟨fun h => ?_, fun h => h ▸ .absolute hd ha⟩, ?_, fun n => .inl ha⟩
      · cases h with
        | absolute h _ => rw [hd] at h; cases h; rfl
        | relative _ h => exact absurd ha h
        | bare h => rw [hd] at h; cases h
      · rw [if_pos ((item_head hok).2 ha)]
        simp [FolderItem.text, hd, child, bs]
    · rw [if_neg (fun h => ha ((item_head hok).1 h))]
      cases hd : i.dir with
      | none =>
        refine ⟨s.base, fun d' => ⟨fun h => ?_, fun h => h ▸ .bare hd⟩, by simp [FolderItem.text, hd], fun n => .inr ⟨n, rfl⟩⟩
        cases h with
        | absolute _ h => exact absurd h ha
        | relative h _ => rw [hd] at h; cases h
        | bare _ => rfl
      | some d =>
        refine ⟨child s.base d, fun d' => ⟨fun h => ?_, fun h => by rw [h, ← child_slash]; exact .relative hd ha⟩, by simp [FolderItem.text, hd, child, bs], fun n => .inr ⟨child d n, by simp [child]⟩⟩
        cases h with
        | absolute _ h => exact absurd h ha
        | relative h _ => rw [hd] at h; cases h; rw [child_slash]
        | bare h => rw [hd] at h; cases h
  have hdeep : (decide (4 ≤ (child D (i.last.text ++ if i.deep then bs "..." else [])).length) &&
      (child D (i.last.text ++ if i.deep then bs "..." else [])).drop ((child D (i.last.text ++ if i.deep then bs "..." else [])).length - 3) == bs "...") = i.deep := by
    cases hd : i.deep with
    | true =>
      simp only [if_true, child, Bool.and_eq_true, decide_eq_true_eq, beq_iff_eq]
      have hl : (bs "...").length = 3 := by decide
      refine ⟨by simp [hl]; omega, ?_⟩
      have : D ++ 0x2f :: (i.last.text ++ bs "...") = (D ++ 0x2f :: i.last.text) ++ bs "..." := by simp
      rw [this]
      have : ((D ++ 0x2f :: i.last.text) ++ bs "...").length - 3 = (D ++ 0x2f :: i.last.text).length := by simp [hl]; omega
      rw [this, List.drop_left]
    | false =>
      have hno := hok.2.1 hd
      simp only [Bool.false_eq_true, if_false, List.append_nil]
      rw [Bool.and_eq_false_iff]
      by_cases h4 : 4 ≤ (child D i.last.text).length
      · right
        rw [beq_eq_false_iff_ne]
        intro he
        have htake := List.take_append_drop ((child D i.last.text).length - 3) (child D i.last.text)
        rw [he] at htake
        generalize (child D i.last.text).take ((child D i.last.text).length - 3) = T at htake
        -- the last component ends in three full stops
        have : ∃ t, i.last.text = t ++ bs "..." := by
          rcases List.append_eq_append_iff.1 (htake : T ++ bs "..." = D ++ 0x2f :: i.last.text) with ⟨a, e1, e2⟩ | ⟨a, e1, e2⟩
          · cases a with
            | nil =>
              simp [bs] at e2
            | cons c a =>
              exfalso
              have hmem : (0x2f : UInt8) ∈ bs "..." := by rw [e2]; simp
              revert hmem; decide
          · cases a with
            | nil => simp [bs] at e2
            | cons c a =>
              simp only [List.cons_append, List.cons.injEq] at e2
              exact ⟨a, e2.2⟩
        obtain ⟨t, ht⟩ := this
        have : ∃ u, i.text = u ++ bs "..." := by
          cases hdir : i.dir with
          | none => exact ⟨t, by simp [FolderItem.text, hd, ht, hdir]⟩
          | some d => exact ⟨d ++ bs "/" ++ t, by simp [FolderItem.text, hd, ht, hdir]⟩
        obtain ⟨u, hu⟩ := this
        exact hno u hu
      · left; simpa using h4
  have hcut : (if i.deep then (child D (i.last.text ++ if i.deep then bs "..." else [])).take ((child D (i.last.text ++ if i.deep then bs "..." else [])).length - 3)
      else child D (i.last.text ++ if i.deep then bs "..." else [])) = child D i.last.text := by
    cases hd : i.deep with
    | true =>
      simp only [if_true]
      have hl : (bs "...").length = 3 := by decide
      have : child D (i.last.text ++ bs "...") = child D i.last.text ++ bs "..." := by simp [child]
      rw [this]
      have : (child D i.last.text ++ bs "...").length - 3 = (child D i.last.text).length := by simp [hl]
      rw [this, List.take_left]
    | false => simp
  let x : Expand := ⟨s.fs, ft, og, if i.text.head? == some 0x2f then 0 else s.base.length + 1⟩
  have hx : Ctx s ft i x := by
    refine ⟨rfl, rfl, hog, fun ha => ?_, fun ha => ?_⟩
    · simp [x, (item_head hok).2 ha]
    · show (if _ then _ else _) = _
      rw [if_neg (fun h => ha ((item_head hok).1 h))]
  have heq : handleOnePath s.fs ft og fuel s.base i.text =
      if isWild i.last.text then handleWild x fuel i.deep D i.last.text else handleSingle x fuel i.deep (child D i.last.text) := by
    simp only [handleOnePath]
    rw [hfull, hdeep, hcut, splitLastSlash_child hok.1]
  rw [heq]
  cases hl : i.last with
  | name t =>
    have hnw : isWild t = false := isWild_name (by have := hok.2.2; rw [hl] at this; exact this)
    simp only [LastComp.text, hnw, Bool.false_eq_true, if_false]
    have hnamed : ∀ q, Named s i q ↔ q = child D t ∧ Exists s.fs q := by
      intro q
      simp only [Named, hl, hD, exists_eq_left, child_slash]
      exact and_comm
    cases hst : s.fs.stat (child D t) with
    | none =>
      refine ⟨[], by simp [handleSingle, x, hst], fun p => ?_⟩
      simp only [List.not_mem_nil, false_iff, Denoted, hnamed]
      rintro ⟨q, ⟨rfl, sb, h⟩, _⟩
      rw [hst] at h; cases h
    | some sb =>
      obtain ⟨l, e, hm⟩ := appendFolder_ok hx hN hf hst (hub t)
      refine ⟨l, by simpa [handleSingle, x, hst] using e, fun p => ?_⟩
      rw [hm]
      simp only [Denoted, hnamed]
      constructor
      · intro h; exact ⟨_, ⟨rfl, sb, hst⟩, h⟩
      · rintro ⟨q, ⟨rfl, _⟩, h⟩; exact h
  | wild w =>
    have hw := hok.2.2
    rw [hl] at hw
    obtain ⟨hw1, hw2, hw3, hw4⟩ := hw
    obtain ⟨gg, eg, hg⟩ := C26_match_partial hw1 hw2
    simp only [LastComp.text, isWild_wild hw3, if_true]
    have hnamed : ∀ q, Named s i q ↔ Exists s.fs q ∧ ∃ name, q = child D name ∧ HasEntry s.fs D name ∧ WildMatch w name ∧ ¬ Omitted s i q := by
      intro q
      simp only [Named, hl, hD, exists_eq_left, child_slash]
    simp only [handleWild, eg, bind, Except.bind]
    have hxr : x.fs.readdir D = s.fs.readdir D := rfl
    rw [hxr]
    cases hr : s.fs.readdir D with
    | none =>
      refine ⟨[], rfl, fun p => ?_⟩
      simp only [List.not_mem_nil, false_iff, Denoted, hnamed]
      rintro ⟨q, ⟨_, n, _, ⟨⟨ns, h, _⟩, _⟩, _⟩, _⟩
      rw [hr] at h; cases h
    | some names =>
      obtain ⟨l, e, hm⟩ := wildEntries_ok hx hN hf hg hub names
      refine ⟨l, e, fun p => ?_⟩
      rw [hm]
      simp only [Denoted, hnamed]
      constructor
      · rintro ⟨n, h1, h2, h3, h4, h5, h6⟩
        exact ⟨child D n, ⟨h5, n, rfl, ⟨⟨names, hr, h1⟩, h2⟩, h3, h4⟩, h6⟩
      · rintro ⟨q, ⟨h5, n, rfl, ⟨⟨names', hr', h1⟩, h2⟩, h3, h4⟩, h6⟩
        rw [hr] at hr'
        cases hr'
        exact ⟨n, h1, h2, h3, h4, h5, h6⟩

theorem expandPaths_ok {s : Setting} {ft : FolderType} {og : List Globber}
    (hog : ∀ n, isGlobberArrayMatch og n = true ↔ ∃ w ∈ s.omits, WildMatch w n) {N fuel : Nat} (hN : PathMax s.fs N) (hf : N < fuel) :
    ∀ (items : List FolderItem), (∀ i ∈ items, i.ok) →
      ∃ l, expandPaths s.fs ft og fuel s.base (items.map FolderItem.text) = .ok l ∧ ∀ p, p ∈ l ↔ ∃ i ∈ items, Denoted s ft i p
  | [], _ => ⟨[], rfl, by simp⟩
  | i :: items, h => by
    obtain ⟨l, e, hl⟩ := handleOnePath_ok (ft := ft) (h i (List.mem_cons_self ..)) hog hN hf
    obtain ⟨r, e2, hr⟩ := expandPaths_ok (ft := ft) hog hN hf items fun j hj => h j (List.mem_cons_of_mem _ hj)
    refine ⟨l ++ r, by simp only [List.map_cons, expandPaths, e, e2, bind, Except.bind], fun p => ?_⟩
    simp [hl, hr]

theorem foldersOf_ok {s : Setting} {ft : FolderType} {og : List Globber}
    (hog : ∀ n, isGlobberArrayMatch og n = true ↔ ∃ w ∈ s.omits, WildMatch w n) {N fuel : Nat} (hN : PathMax s.fs N) (hf : N < fuel)
    {folders : Option Text} {items : List FolderItem} (hw : WritesList folders (items.map FolderItem.text)) (ho : ∀ i ∈ items, i.ok) :
    ∃ l, foldersOf s.fs og fuel s.base ft folders = .ok l ∧ ∀ p, p ∈ l ↔ ∃ i ∈ items, Denoted s ft i p := by
  cases folders with
  | none =>
    have : items = [] := by simpa [WritesList] using hw
    subst this
    exact ⟨[], rfl, by simp⟩
  | some f =>
    obtain ⟨pieces, h1, h2⟩ := hw
    obtain ⟨l, e, hl⟩ := expandPaths_ok (ft := ft) hog hN hf items ho
    refine ⟨l, ?_, hl⟩
    simp only [foldersOf, splitOnColons_ok h1, ← h2, bind, Except.bind]
    exact e

theorem omitGlobs_ok {omitted : Option Text} {ws : List (List Wild)} (h : WritesList omitted (ws.map wildText)) (ho : ∀ w ∈ ws, WildOk w ∧ solid w ≤ 31) :
    ∃ og, omitGlobs omitted = .ok og ∧ ∀ n, isGlobberArrayMatch og n = true ↔ ∃ w ∈ ws, WildMatch w n := by
  cases omitted with
  | none =>
    have : ws = [] := by simpa [WritesList] using h
    subst this
    exact ⟨[], rfl, by simp [isGlobberArrayMatch]⟩
  | some o =>
    obtain ⟨pieces, h1, h2⟩ := h
    have e2 : ∀ (l : List (List Wild)), (∀ p ∈ l, WildOk p ∧ solid p ≤ 31) →
        ∃ ga, makeGlobbers (l.map wildText) = .ok ga ∧ ∀ s, isGlobberArrayMatch ga s = true ↔ ∃ p ∈ l, WildMatch p s := by
      intro l
      induction l with
      | nil => intro _; exact ⟨[], rfl, by simp [isGlobberArrayMatch]⟩
      | cons p l ih =>
        intro h
        obtain ⟨ga, e, hm⟩ := ih fun x hx => h x (List.mem_cons_of_mem _ hx)
        obtain ⟨g, eg, hg⟩ := C26_match_partial (h p (List.mem_cons_self ..)).1 (h p (List.mem_cons_self ..)).2
        refine ⟨g :: ga, by simp [makeGlobbers, eg, e, bind, Except.bind], fun s => ?_⟩
        have := hm s
        simp only [isGlobberArrayMatch] at this
        simp [isGlobberArrayMatch, hg, this]
    obtain ⟨ga, e, hm⟩ := e2 ws ho
    refine ⟨ga, ?_, hm⟩
    simp only [omitGlobs, globberArray, splitOnColons_ok h1, ← h2, bind, Except.bind]
    exact e

end Mairix
