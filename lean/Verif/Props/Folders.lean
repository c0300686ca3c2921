import Verif.Proofs.Folders

/-!
# Which messages are indexed (C51) and where results may not go (C38)
-/

namespace Mairix
open Spec

theorem mem_messageNames {fs : Fs} {dir name : Text} : name ∈ messageNames fs dir ↔ HasEntry fs dir name := by
  simp only [messageNames, List.mem_filter, Bool.not_eq_true', isDots_iff, HasEntry]
  cases h : fs.readdir dir with
  | none => simp
  | some names => simp

/-- The files of maildirs. -/
theorem mem_maildirPaths {fs : Fs} {folder p : Text} :
    p ∈ maildirPaths fs folder ↔ (∃ n, HasEntry fs (folder ++ bs "/new") n ∧ p = folder ++ bs "/new/" ++ n) ∨ ∃ n, HasEntry fs (folder ++ bs "/cur") n ∧ p = folder ++ bs "/cur/" ++ n := by
  have e1 : child folder (bs "new") = folder ++ bs "/new" := rfl
  have e2 : child folder (bs "cur") = folder ++ bs "/cur" := rfl
  have e3 : ∀ n, child (folder ++ bs "/new") n = folder ++ bs "/new/" ++ n := by
    intro n; rw [← child_slash, List.append_assoc folder]; rfl
  have e4 : ∀ n, child (folder ++ bs "/cur") n = folder ++ bs "/cur/" ++ n := by
    intro n; rw [← child_slash, List.append_assoc folder]; rfl
  simp only [maildirPaths, e1, e2, List.mem_append, List.mem_map, mem_messageNames, e3, e4, eq_comm]

/-- **C51** (messages in files). For every configuration, the messages that an indexing run considers are exactly the files in the `new` and `cur` directories of the maildirs, and
the numbered files of the MH folders, that the folder lists mean, less those omitted; and the search for them ends. -/
theorem C51_messages {c : Config} {fs : Fs} {s : Setting} {items : FolderType → List FolderItem} (hm : Means c fs s items) {N fuel : Nat} (hN : PathMax fs N) (hf : N < fuel) :
    ∃ l, listMessages fs fuel c = .ok l ∧ ∀ e, e ∈ l ↔ e.kind = .file ∧ MessageFile s items e.path := by
  obtain ⟨rfl, hbase, ho, hoo, h1, h2, h3, hok⟩ := hm
  obtain ⟨og, eo, hog⟩ := omitGlobs_ok ho hoo
  obtain ⟨a, ea, ha⟩ := foldersOf_ok (ft := .maildir) hog hN hf h1 (hok _)
  obtain ⟨b, eb, hb⟩ := foldersOf_ok (ft := .mh) hog hN hf h2 (hok _)
  rw [hbase] at ea eb
  refine ⟨(a.flatMap (maildirPaths s.fs) ++ b.flatMap (mhPaths s.fs)).map fun p => ⟨.file, p⟩, by simp only [listMessages, eo, ea, eb, bind, Except.bind], fun e => ?_⟩
  simp only [List.mem_map, List.mem_append, List.mem_flatMap, ha, hb, mem_maildirPaths, mhPaths, List.mem_filter, mem_messageNames, validMh_iff]
  constructor
  · rintro ⟨p, (⟨f, ⟨i, hi, hd⟩, h⟩ | ⟨f, ⟨i, hi, hd⟩, n, ⟨h, hn⟩, rfl⟩), rfl⟩
    · refine ⟨rfl, ?_⟩
      rcases h with ⟨n, h, rfl⟩ | ⟨n, h, rfl⟩
      · exact .new ⟨i, hi, hd⟩ h
      · exact .cur ⟨i, hi, hd⟩ h
    · refine ⟨rfl, ?_⟩
      show MessageFile s items (child f n)
      rw [← child_slash]
      exact .mh ⟨i, hi, hd⟩ h hn
  · rintro ⟨hk, h⟩
    obtain ⟨k, p⟩ := e
    simp only at hk h
    subst hk
    cases h with
    | @new f n hf h => exact ⟨_, .inl ⟨f, hf, .inl ⟨n, h, rfl⟩⟩, rfl⟩
    | @cur f n hf h => exact ⟨_, .inl ⟨f, hf, .inr ⟨n, h, rfl⟩⟩, rfl⟩
    | @mh f n hf h hn => exact ⟨_, .inr ⟨f, hf, n, ⟨h, hn⟩, (child_slash f n).symm⟩, rfl⟩

/-- **C51** (mboxen). The mboxen that an indexing run considers are exactly the files that the folder list means, less those omitted and, unless links are to be
followed, those that are links; with the modification time and size that they have. -/
theorem C51_mboxen {c : Config} {fs : Fs} {s : Setting} {items : FolderType → List FolderItem} (hm : Means c fs s items) {N fuel : Nat} (hN : PathMax fs N) (hf : N < fuel) :
    ∃ l, listMboxen fs fuel c = .ok l ∧
      ∀ e, e ∈ l ↔ Configured s items .mbox e.path ∧ ∃ sb, fs.lstat e.path = some sb ∧ (sb.link = true → c.followLinks = true) ∧ e.mtime = sb.mtime ∧ e.size = sb.size := by
  obtain ⟨rfl, hbase, ho, hoo, h1, h2, h3, hok⟩ := hm
  obtain ⟨og, eo, hog⟩ := omitGlobs_ok ho hoo
  obtain ⟨a, ea, ha⟩ := foldersOf_ok (ft := .mbox) hog hN hf h3 (hok _)
  rw [hbase] at ea
  refine ⟨a.filterMap fun p =>
    match s.fs.lstat p with
    | none => none
    | some sb => if sb.link && !c.followLinks then none else some ⟨p, sb.mtime, sb.size⟩, by simp only [listMboxen, eo, ea, bind, Except.bind]; rfl, fun e => ?_⟩
  simp only [List.mem_filterMap, ha]
  constructor
  · rintro ⟨p, hp, h⟩
    cases hl : s.fs.lstat p with
    | none => rw [hl] at h; cases h
    | some sb =>
      rw [hl] at h
      dsimp only at h
      split at h
      · cases h
      · rename_i hh
        cases h
        refine ⟨hp, sb, hl, ?_, rfl, rfl⟩
        intro h; simpa [h] using hh
  · rintro ⟨hp, sb, hl, hlk, h1, h2⟩
    refine ⟨e.path, hp, ?_⟩
    rw [hl]
    dsimp only
    rw [if_neg]
    · rw [← h1, ← h2]
    · simpa using hlk

/-- The results folder is one of the folders of the configuration. -/
def Covered (s : Setting) (items : FolderType → List FolderItem) (mfolder : Text) : Prop :=
  ∃ ft p, Configured s items ft p ∧ (resultsPath s.base mfolder = p ∨ SameFile s.fs (resultsPath s.base mfolder) p)

theorem memberLoop_iff (fs : Fs) (m : Text) (l : List Text) :
    memberLoop fs m l = true ↔ ∃ p ∈ l, m = p ∨ ∃ a b, fs.stat m = some a ∧ fs.stat p = some b ∧ a.ino = b.ino := by
  induction l with
  | nil => simp [memberLoop]
  | cons p l ih =>
    simp only [memberLoop, List.mem_cons, exists_eq_or_imp]
    by_cases h : m = p
    · simp [h]
    · rw [if_neg h]
      cases ha : fs.stat m with
      | none => simp [h, ih, ha]
      | some a =>
        cases hb : fs.stat p with
        | none => simp [h, ih, ha]
        | some b =>
          dsimp only
          by_cases hi : a.ino = b.ino
          · simp [hi]
          · rw [if_neg hi, ih]
            simp [h, hi, ha]

/-- The outcome of the check: refusal iff a folder of the configuration is the results folder by name or has its inode number. -/
theorem checkMfolder_ok {c : Config} {fs : Fs} {s : Setting} {items : FolderType → List FolderItem} (hm : Means c fs s items) {N fuel : Nat} (hN : PathMax fs N)
    (hf : N < fuel) (mfolder : Text) :
    (checkMfolder fs fuel c mfolder = .error (.exit 3) ∨ checkMfolder fs fuel c mfolder = .ok ()) ∧
    (checkMfolder fs fuel c mfolder = .error (.exit 3) ↔
      ∃ ft p, Configured s items ft p ∧ (resultsPath s.base mfolder = p ∨ ∃ a b, fs.stat (resultsPath s.base mfolder) = some a ∧ fs.stat p = some b ∧ a.ino = b.ino)) := by
  obtain ⟨rfl, hbase, ho, hoo, h1, h2, h3, hok⟩ := hm
  obtain ⟨og, eo, hog⟩ := omitGlobs_ok ho hoo
  obtain ⟨l1, e1, hl1⟩ := foldersOf_ok (ft := .maildir) hog hN hf h1 (hok _)
  obtain ⟨l2, e2, hl2⟩ := foldersOf_ok (ft := .mh) hog hN hf h2 (hok _)
  obtain ⟨l3, e3, hl3⟩ := foldersOf_ok (ft := .mbox) hog hN hf h3 (hok _)
  rw [hbase] at e1 e2 e3
  have hr : completeMfolder c.base mfolder = resultsPath s.base mfolder := by
    rw [hbase]
    simp only [completeMfolder, resultsPath, child_slash]
    have : mfolder.head? = some 0x2f ↔ mfolder.take 1 = bs "/" := by
      cases mfolder <;> simp [bs]
    simp only [this]
  have hex : (∃ ft p, Configured s items ft p ∧ (resultsPath s.base mfolder = p ∨ ∃ a b, s.fs.stat (resultsPath s.base mfolder) = some a ∧ s.fs.stat p = some b ∧ a.ino = b.ino)) ↔
      memberLoop s.fs (resultsPath s.base mfolder) l1 = true ∨ memberLoop s.fs (resultsPath s.base mfolder) l2 = true ∨ memberLoop s.fs (resultsPath s.base mfolder) l3 = true := by
    simp only [memberLoop_iff, hl1, hl2, hl3]
    constructor
    · rintro ⟨ft, p, h⟩
      cases ft with
      | maildir => exact .inl ⟨p, h⟩
      | mh => exact .inr (.inl ⟨p, h⟩)
      | mbox => exact .inr (.inr ⟨p, h⟩)
    · rintro (⟨p, h⟩ | ⟨p, h⟩ | ⟨p, h⟩)
      · exact ⟨.maildir, p, h⟩
      · exact ⟨.mh, p, h⟩
      · exact ⟨.mbox, p, h⟩
  rw [hex]
  simp only [checkMfolder, eo, memberOf, e1, e2, e3, bind, Except.bind, hr]
  cases memberLoop s.fs (resultsPath s.base mfolder) l1 <;> cases memberLoop s.fs (resultsPath s.base mfolder) l2 <;>
    cases memberLoop s.fs (resultsPath s.base mfolder) l3 <;> simp

/-- **C38** (refusal). A search whose results folder is, by name or by being the same file, a folder of the configuration that is not omitted is refused, however both
are spelt. -/
theorem C38_refused {c : Config} {fs : Fs} {s : Setting} {items : FolderType → List FolderItem} (hm : Means c fs s items) {N fuel : Nat} (hN : PathMax fs N)
    (hf : N < fuel) {mfolder : Text} (hc : Covered s items mfolder) : checkMfolder fs fuel c mfolder = .error (.exit 3) := by
  obtain ⟨ft, p, h1, h2⟩ := hc
  refine (checkMfolder_ok hm hN hf mfolder).2.2 ⟨ft, p, h1, ?_⟩
  rw [← hm.fs]
  rcases h2 with h2 | ⟨a, b, ha, hb, _, hi⟩
  · exact .inl h2
  · exact .inr ⟨a, b, ha, hb, hi⟩

/-- **C38** (no other refusal), if all files are on one device. Missing: several devices, on which files may have the same inode number (see `C38_device_violation`). -/
theorem C38_accepted_partial {c : Config} {fs : Fs} {s : Setting} {items : FolderType → List FolderItem} (hm : Means c fs s items) {N fuel : Nat} (hN : PathMax fs N)
    (hf : N < fuel) (hdev : ∀ p q a b, fs.stat p = some a → fs.stat q = some b → a.dev = b.dev) {mfolder : Text} (hc : ¬ Covered s items mfolder) :
    checkMfolder fs fuel c mfolder = .ok () := by
  obtain ⟨h1, h2⟩ := checkMfolder_ok hm hN hf mfolder
  rcases h1 with h1 | h1
  · exfalso
    obtain ⟨ft, p, h3, h4⟩ := h2.1 h1
    refine hc ⟨ft, p, h3, ?_⟩
    rcases h4 with h4 | ⟨a, b, ha, hb, hi⟩
    · exact .inl h4
    · exact .inr ⟨a, b, hm.fs ▸ ha, hm.fs ▸ hb, hdev _ _ a b ha hb, hi⟩
  · exact h1

/-- What C38 is for: after a search that was not refused, no message that is indexed is in the results folder, whether as a maildir or an MH folder, by any name, and the results are not an mbox that is indexed. -/
theorem C38_safe {c : Config} {fs : Fs} {s : Setting} {items : FolderType → List FolderItem} (hm : Means c fs s items) {N fuel : Nat} (hN : PathMax fs N)
    (hf : N < fuel) {mfolder : Text} (ho : checkMfolder fs fuel c mfolder = .ok ()) (ft : FolderType) (p : Text) (hp : Configured s items ft p) :
    p ≠ resultsPath s.base mfolder ∧ ¬ SameFile fs (resultsPath s.base mfolder) p := by
  constructor
  · rintro rfl
    rw [C38_refused hm hN hf ⟨ft, _, hp, .inl rfl⟩] at ho; cases ho
  · intro h
    rw [C38_refused hm hN hf ⟨ft, _, hp, .inr (by rw [hm.fs]; exact h)⟩] at ho; cases ho

/-! ## An example -/

def exStats : List (Text × FStat) :=
  [(bs "/m/in", ⟨.directory, 1, 11⟩), (bs "/m/in/new", ⟨.directory, 1, 12⟩), (bs "/m/in/tmp", ⟨.directory, 1, 13⟩), (bs "/m/in/cur", ⟨.directory, 1, 14⟩),
   (bs "/m/l", ⟨.directory, 1, 15⟩), (bs "/m/l/x", ⟨.directory, 1, 16⟩), (bs "/m/l/x/index", ⟨.regular, 1, 17⟩), (bs "/m/l/old", ⟨.directory, 1, 18⟩), (bs "/m/l/old/index", ⟨.regular, 1, 19⟩),
   (bs "/m/in/new/1.a", ⟨.regular, 1, 31⟩), (bs "/m/l/x/1", ⟨.regular, 1, 32⟩), (bs "/d/res", ⟨.directory, 2, 11⟩)]

def exDirs : List (Text × List Text) :=
  [(bs "/m/in/new", [bs ".", bs "..", bs "1.a"]), (bs "/m/in/cur", [bs ".", bs "..", bs "2.b:2,S"]), (bs "/m", [bs "in", bs "l", bs "."]), (bs "/m/l", [bs "x", bs "old"]),
   (bs "/m/l/x", [bs "1", bs "17", bs "index"]), (bs "/m/l/old", [bs "3"])]

def exFs : Fs := ⟨fun p => (exStats.find? (·.1 == p)).map (·.2), fun _ => none, fun p => (exDirs.find? (·.1 == p)).map (·.2)⟩

def exConfig : Config := ⟨bs "/m", some (bs "i?:"), some (bs "l..."), none, some (bs "**old*"), false⟩

def exItems : FolderType → List FolderItem
  | .maildir => [⟨none, .wild [.char 0x69, .question], false⟩]
  | .mh => [⟨none, .name (bs "l"), true⟩]
  | .mbox => []

def exSetting : Setting := ⟨exFs, bs "/m", [[.twoStars, .char 0x6f, .char 0x6c, .char 0x64, .star]]⟩

theorem exMeans : Means exConfig exFs exSetting exItems where
  fs := rfl
  base := rfl
  omits := ⟨[bs "**old*"], .last (by
    intro a b h
    have : (0x3a : UInt8) ∈ bs "**old*" := by rw [h]; simp
    exact absurd this (by decide)), by decide⟩
  omitOk := by simp [exSetting, WildOk, Wild.ok, solid]
  maildirs := ⟨[bs "i?", []], .more (p := bs "i?") (s := []) (by
    intro a b h
    have : (0x3a : UInt8) ∈ bs "i?" := by rw [h]; simp
    exact absurd this (by decide)) (by
    intro a h
    have := congrArg List.getLast? h
    simp [bs] at this) (.last (by intro a b h; simp at h)), by decide⟩
  mhs := ⟨[bs "l..."], .last (by
    intro a b h
    have : (0x3a : UInt8) ∈ bs "l..." := by rw [h]; simp
    exact absurd this (by decide)), by decide⟩
  mboxen := rfl
  itemsOk := by
    intro ft i hi
    cases ft with
    | maildir =>
      simp only [exItems, List.mem_singleton] at hi
      subst hi
      refine ⟨by decide, fun _ t h => ?_, by simp [WildOk, Wild.ok], by decide, ⟨.question, by simp, by simp⟩, by simp⟩
      have := congrArg List.length h
      simp [FolderItem.text, LastComp.text, wildText, Wild.text, bs] at this
    | mh =>
      simp only [exItems, List.mem_singleton] at hi
      subst hi
      refine ⟨by decide, fun h => Bool.noConfusion h, ?_⟩
      show ∀ c ∈ bs "l", c ≠ 0x5b ∧ c ≠ 0x2a ∧ c ≠ 0x3f
      decide
    | mbox => simp [exItems] at hi

theorem exPathMax : PathMax exFs 20 := by
  intro p hp
  simp only [exFs, Option.map_eq_none_iff, List.find?_eq_none]
  intro x hx
  simp only [beq_iff_eq]
  rintro rfl
  have : ∀ x ∈ exStats, x.1.length ≤ 20 := by decide
  have := this x hx
  omega

example : listMessages exFs 21 exConfig = .ok [⟨.file, bs "/m/in/new/1.a"⟩, ⟨.file, bs "/m/in/cur/2.b:2,S"⟩, ⟨.file, bs "/m/l/x/1"⟩, ⟨.file, bs "/m/l/x/17"⟩] := by decide +kernel

example : checkMfolder exFs 21 exConfig (bs "in") = .error (.exit 3) ∧ checkMfolder exFs 21 exConfig (bs "l/old") = .ok () := by decide +kernel

/-- A results folder on another device is refused, although it is no folder of the configuration, because it happens to have the inode number of one that is. -/
theorem C38_device_violation : checkMfolder exFs 21 exConfig (bs "/d/res") = .error (.exit 3) ∧ ¬ Covered exSetting exItems (bs "/d/res") := by
  refine ⟨by decide +kernel, ?_⟩
  rintro ⟨ft, p, ⟨i, hi, q, hq, hpq, hf, ho⟩, h⟩
  have hr : resultsPath exSetting.base (bs "/d/res") = bs "/d/res" := by decide
  rw [hr] at h
  have hdev : ∀ p ∈ exStats, p.2.dev = 2 → p.1 = bs "/d/res" := by decide
  have hmem : ∀ p a, exFs.stat p = some a → (p, a) ∈ exStats := by
    intro p a h
    simp only [exFs, Option.map_eq_some_iff] at h
    obtain ⟨⟨p', a'⟩, h1, rfl⟩ := h
    have h2 := List.mem_of_find?_eq_some h1
    have h3 := List.find?_some h1
    simp only [beq_iff_eq] at h3
    subst h3
    exact h2
  have hpd : p = bs "/d/res" := by
    rcases h with h | ⟨a, b, ha, hb, hd, _⟩
    · exact h.symm
    · have ea : a = ⟨.directory, 2, 11⟩ := by
        have : exFs.stat (bs "/d/res") = some ⟨.directory, 2, 11⟩ := by decide
        have ha' : exFs.stat (bs "/d/res") = some a := ha
        rw [this] at ha'; exact (Option.some.inj ha').symm
      subst ea
      exact hdev _ (hmem p b hb) hd.symm
  subst hpd
  -- a folder of the configuration is a maildir or an MH folder, but this has no files in it
  have hno : ∀ n, exFs.stat (bs "/d/res" ++ n) = none ∨ n = [] := by
    intro n
    cases hs : exFs.stat (bs "/d/res" ++ n) with
    | none => exact .inl rfl
    | some a =>
      right
      have := hmem _ a hs
      have hp : ∀ x ∈ exStats, x.1.take 6 = bs "/d/res" → x.1 = bs "/d/res" := by decide
      have := hp _ this (by
        show (bs "/d/res" ++ n).take 6 = bs "/d/res"
        rw [show 6 = (bs "/d/res").length from by decide, List.take_left])
      simpa using this
  cases ft with
  | maildir =>
    obtain ⟨_, ⟨sb, h1, _⟩, _⟩ := hf
    rcases hno (bs "/new") with h2 | h2
    · have h1' : exFs.stat (bs "/d/res" ++ bs "/new") = some sb := h1
      rw [h2] at h1'; cases h1'
    · revert h2; decide
  | mh =>
    obtain ⟨_, f, hf, ⟨sb, h1, _⟩⟩ := hf
    rcases hno (bs "/" ++ f) with h2 | h2
    · have h1' : exFs.stat (bs "/d/res" ++ bs "/" ++ f) = some sb := h1
      rw [List.append_assoc, h2] at h1'; cases h1'
    · simp [bs] at h2
  | mbox => simp [exItems] at hi

/-- A wildcard directly below the root finds nothing, whatever there is: the directory `/` is opened by the empty name, which no file system knows. -/
theorem C51_root_violation (fs : Fs) (hfs : fs.readdir [] = none) (fuel : Nat) :
    foldersOf fs [] fuel (bs "/home") .maildir (some (bs "/ma*")) = .ok [] := by
  have e1 : splitOnColons (bs "/ma*") = .ok [bs "/ma*"] := by decide +kernel
  have e2 : splitLastSlash (bs "/ma*") = some ([], bs "ma*") := by decide +kernel
  have e3 : (makeGlobber (bs "ma*")).isOk = true := by decide +kernel
  obtain ⟨g, e4⟩ : ∃ g, makeGlobber (bs "ma*") = .ok g := by
    cases h : makeGlobber (bs "ma*") with
    | error e => rw [h] at e3; cases e3
    | ok g => exact ⟨g, rfl⟩
  have hd : (decide (4 ≤ (bs "/ma*").length) && (bs "/ma*").drop ((bs "/ma*").length - 3) == bs "...") = false := by decide
  have ha : ((bs "/ma*").head? == some 0x2f) = true := by decide
  have hw : isWild (bs "ma*") = true := by decide
  simp only [foldersOf, e1, bind, Except.bind, expandPaths, handleOnePath, ha, if_true, hd, Bool.false_eq_true, if_false, e2, hw, handleWild, e4, hfs, List.append_nil]

end Mairix
