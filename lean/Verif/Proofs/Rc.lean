import Verif.Spec.Rc
import Verif.Props.Expand
import Verif.Proofs.Bytes

/-!
# Reading the configuration file: lemmas
-/

namespace Mairix
open Spec

theorem takeWhile_self {p : UInt8 → Bool} {l : Text} (h : ∀ c ∈ l, p c = true) : l.takeWhile p = l := by
  have := takeWhile_to (b := []) h (by simp)
  rwa [List.append_nil] at this

theorem dropWhile_none {p : UInt8 → Bool} {l : Text} (h : ∀ c ∈ l, p c = true) : l.dropWhile p = [] := by
  induction l with
  | nil => rfl
  | cons c l ih => rw [List.dropWhile_cons_of_pos (h c (by simp)), ih fun d hd => h d (by simp [hd])]

theorem lower_append (a b : Text) : lower (a ++ b) = lower a ++ lower b := by simp [lower]

theorem lower_take (a : Text) (n : Nat) : lower (a.take n) = (lower a).take n := by simp [lower, List.map_take]

theorem starts_prefix {w v K L : Text} (hw : lower w = K) (h : L <+: K) : startsNoCase (w ++ v) L = true := by
  obtain ⟨t, rfl⟩ := h
  have hl : L.length ≤ w.length := by
    have := congrArg List.length hw
    simp [lower] at this; omega
  unfold startsNoCase
  rw [List.take_append_of_le_length hl, lower_take, hw]
  simp

theorem starts_not {w v K L : Text} (hw : lower w = K) (h : ¬ L <+: K) (h' : ¬ K <+: L) : startsNoCase (w ++ v) L = false := by
  unfold startsNoCase
  rw [lower_take, lower_append, hw]
  by_cases hl : L.length ≤ K.length
  · rw [List.take_append_of_le_length hl]
    apply Bool.eq_false_iff.2
    intro e
    apply h
    have e := beq_iff_eq.1 e
    rw [← e]
    exact List.take_prefix _ _
  · apply Bool.eq_false_iff.2
    intro e
    apply h'
    have e := beq_iff_eq.1 e
    rw [List.take_append] at e
    refine ⟨(lower v).take (L.length - K.length), ?_⟩
    rw [List.take_of_length_le (by omega)] at e
    exact e

/-- The test that a line with a documented name passes. -/
theorem find_key {w v K : Text} (hw : lower w = K) {k : RcKey} (l : List RcKey)
    (hc : (l.all fun k' => decide (k'.lit <+: K) || !decide (K <+: k'.lit)) = true)
    (hk : l.find? (fun k' => decide (k'.lit <+: K)) = some k) :
    l.find? (fun k' => startsNoCase (w ++ v) k'.lit) = some k := by
  induction l with
  | nil => simp at hk
  | cons k' l ih =>
    rw [List.all_cons, Bool.and_eq_true] at hc
    rw [List.find?_cons] at hk ⊢
    by_cases hp : k'.lit <+: K
    · rw [starts_prefix hw hp]
      simp [hp] at hk ⊢
      exact hk
    · have : ¬ K <+: k'.lit := by
        intro hh
        have := hc.1
        simp [hp, hh] at this
      rw [starts_not hw hp this]
      simp [hp] at hk ⊢
      exact ih hc.2 hk

theorem copyValue_ok (e : Env) {w v K : Text} (hw : lower w = K ++ bs "=") (hK : 0x3d ∉ K) {r : Text} (hr : StandsFor e v r) : copyValue e (w ++ v) = .ok (some r) := by
  have hlen : w ≠ [] := by rintro rfl; have := congrArg List.length hw; simp [lower, bs] at this
  obtain ⟨a, c, rfl⟩ : ∃ a c, w = a ++ [c] := ⟨w.dropLast, w.getLast hlen, (List.dropLast_concat_getLast hlen).symm⟩
  rw [lower_append] at hw
  have := List.append_inj' hw (by simp [lower, bs])
  have hc : c = 0x3d := by
    have h2 := this.2
    simp [lower, bs] at h2
    have := forall_byte (P := fun c => toLower c = 0x3d → c = 0x3d) (by decide +kernel) c
    exact this h2
  subst hc
  have ha : ∀ c ∈ a, (c != 0x3d) = true := by
    intro c hc
    simp only [bne_iff_ne, ne_eq]
    rintro rfl
    apply hK
    rw [← this.1]
    exact List.mem_map.2 ⟨_, hc, by decide⟩
  have hd : (a ++ [0x3d] ++ v).dropWhile (· != 0x3d) = 0x3d :: v := by
    rw [List.append_assoc, List.dropWhile_append_of_pos ha]
    rfl
  unfold copyValue
  rw [hd]
  simp [(standsFor_runs hr).2, Except.map]

/-- What a line does, given what its value stands for. -/
def itemDo (rc : Rc) (r : Text) : RcItem → Rc
  | .blank => rc
  | .comment _ => rc
  | .set .base _ => { rc with base := some r }
  | .set .mfolder _ => { rc with mfolder := some r }
  | .set .database _ => { rc with database := some r }
  | .set .imapServer _ => { rc with imapServer := some r }
  | .set .imapPipe _ => { rc with imapPipe := some r }
  | .set .imapUsername _ => { rc with imapUsername := some r }
  | .set .imapPassword _ => { rc with imapPassword := some r }
  | .list .maildir _ => { rc with maildirs := some (match rc.maildirs with | none => r | some o => o ++ bs ":" ++ r) }
  | .list .mh _ => { rc with mhs := some (match rc.mhs with | none => r | some o => o ++ bs ":" ++ r) }
  | .list .mbox _ => { rc with mboxen := some (match rc.mboxen with | none => r | some o => o ++ bs ":" ++ r) }
  | .list .imap _ => { rc with imaps := some (match rc.imaps with | none => r | some o => o ++ bs ":" ++ r) }
  | .list .omit _ => { rc with omitted := some (match rc.omitted with | none => r | some o => o ++ bs ":" ++ r) }
  | .flag .nochecks => { rc with skipChecks := true }
  | .flag .followMboxSymlinks => { rc with followLinks := true }
  | .flag .sortDate => { rc with sortByDate := true }
  | .format _ => { rc with format := parseOutputFolder rc.format r }

/-- The value on a line. -/
def itemValue : RcItem → Text
  | .set _ v => v
  | .list _ v => v
  | .format v => v
  | _ => []

theorem addFolders_some (o : Option Text) (r : Text) :
    addFolders o (some r) = .ok (some (match o with | none => r | some o => o ++ bs ":" ++ r)) := by
  cases o <;> rfl

/-- The key in the code. -/
def setRcKey : SetKey → RcKey
  | .base => .base
  | .mfolder => .mfolder
  | .database => .database
  | .imapServer => .imapServer
  | .imapPipe => .imapPipe
  | .imapUsername => .imapUsername
  | .imapPassword => .imapPassword

/-- The key in the code. -/
def listRcKey : ListKey → RcKey
  | .maildir => .maildir
  | .mh => .mh
  | .mbox => .mbox
  | .imap => .imap
  | .omit => .omitted

/-- The key in the code. -/
def flagRcKey : FlagKey → RcKey
  | .nochecks => .nochecks
  | .followMboxSymlinks => .followLinks
  | .sortDate => .sortByDate

theorem find_set {k : SetKey} {w : Text} (hw : lower w = k.name) (v : Text) :
    rcKeys.find? (fun k' => startsNoCase (w ++ v) k'.lit) = some (setRcKey k) := by
  cases k <;> exact find_key hw _ (by decide +kernel) (by decide +kernel)

theorem find_list {k : ListKey} {w : Text} (hw : lower w = k.name) (v : Text) :
    rcKeys.find? (fun k' => startsNoCase (w ++ v) k'.lit) = some (listRcKey k) := by
  cases k <;> exact find_key hw _ (by decide +kernel) (by decide +kernel)

theorem find_flag {k : FlagKey} {w : Text} (hw : lower w = k.name) (v : Text) :
    rcKeys.find? (fun k' => startsNoCase (w ++ v) k'.lit) = some (flagRcKey k) := by
  cases k <;> exact find_key hw _ (by decide +kernel) (by decide +kernel)

theorem find_format {w : Text} (hw : lower w = bs "mformat=") (v : Text) :
    rcKeys.find? (fun k' => startsNoCase (w ++ v) k'.lit) = some .mformat :=
  find_key hw _ (by decide +kernel) (by decide +kernel)

theorem rcOption_set (e : Env) (rc : Rc) {k : SetKey} {w v r : Text} (hw : lower w = k.name) (hr : StandsFor e v r) :
    rcOption e rc (w ++ v) = .ok (itemDo rc r (.set k v)) := by
  unfold rcOption
  rw [find_set hw v]
  have nm : k.name = k.name.dropLast ++ bs "=" ∧ 0x3d ∉ k.name.dropLast := by cases k <;> decide +kernel
  have := copyValue_ok e (K := k.name.dropLast) (by rw [hw]; exact nm.1) nm.2 hr
  cases k <;> simp [rcDo, this, bind, Except.bind, itemDo, setRcKey]

theorem rcOption_list (e : Env) (rc : Rc) {k : ListKey} {w v r : Text} (hw : lower w = k.name) (hr : StandsFor e v r) :
    rcOption e rc (w ++ v) = .ok (itemDo rc r (.list k v)) := by
  unfold rcOption
  rw [find_list hw v]
  have nm : k.name = k.name.dropLast ++ bs "=" ∧ 0x3d ∉ k.name.dropLast := by cases k <;> decide +kernel
  have := copyValue_ok e (K := k.name.dropLast) (by rw [hw]; exact nm.1) nm.2 hr
  cases k <;> simp only [rcDo, this, bind, Except.bind, itemDo, addFolders_some, listRcKey]

theorem rcOption_flag (e : Env) (rc : Rc) {k : FlagKey} {w v : Text} (r : Text) (hw : lower w = k.name) :
    rcOption e rc (w ++ v) = .ok (itemDo rc r (.flag k)) := by
  unfold rcOption
  rw [find_flag hw v]
  cases k <;> rfl

theorem rcOption_format (e : Env) (rc : Rc) {w v r : Text} (hw : lower w = bs "mformat=") (hr : StandsFor e v r) :
    rcOption e rc (w ++ v) = .ok (itemDo rc r (.format v)) := by
  unfold rcOption
  rw [find_format hw v]
  have := copyValue_ok e (K := bs "mformat") hw (by decide +kernel) hr
  simp [rcDo, this, bind, Except.bind, itemDo, setRcKey]

/-- A line with or without its end. -/
theorem rcLine_text (e : Env) (rc : Rc) {t : Text} (ht : LineOk t) {s : Text} (hs : s = bs "\n" ∨ (s = [] ∧ t ≠ [])) :
    rcLine e rc (t ++ s) = (match (t.takeWhile fun c => !rcComment c).dropWhile isSpace with
      | [] => .ok rc
      | c :: p => rcOption e rc (c :: p)) := by
  obtain ⟨h1, h2, h3⟩ := ht
  have hz : (t ++ s).takeWhile (· != 0) = t ++ s := by
    apply takeWhile_self
    intro c hc
    rcases List.mem_append.1 hc with hc | hc
    · simp only [bne_iff_ne, ne_eq]; rintro rfl; exact h2 hc
    · rcases hs with rfl | ⟨rfl, _⟩
      · simp [bs] at hc; subst hc; decide
      · simp at hc
  unfold rcLine
  simp only [hz]
  have hlen : ¬ (t ++ s).length > 4092 := by
    rcases hs with rfl | ⟨rfl, _⟩
    · simp [bs]; omega
    · simp; omega
  have hne : ¬ (t ++ s).length = 0 := by
    rcases hs with rfl | ⟨rfl, h⟩
    · simp [bs]
    · simpa using h
  rw [if_neg hlen, if_neg hne]
  have : (if (t ++ s).getLast? = some 0x0a then (t ++ s).dropLast else t ++ s) = t := by
    rcases hs with rfl | ⟨rfl, h⟩
    · simp [bs]
    · rw [if_neg]
      · simp
      · rw [List.append_nil]
        intro hh
        exact h3 (List.mem_of_getLast? hh)
  rw [this]
  rfl

theorem notSpace_lit {w K : Text} (hw : lower w = K) (hK : ∃ c, K.head? = some c ∧ isLower c = true) : ∃ c w', w = c :: w' ∧ isSpace c = false := by
  obtain ⟨c, hc, hl⟩ := hK
  cases w with
  | nil => subst hw; simp [lower] at hc
  | cons d w =>
    refine ⟨d, w, rfl, ?_⟩
    subst hw
    simp [lower] at hc
    subst hc
    have := forall_byte (P := fun d => isLower (toLower d) = true → isSpace d = false) (by decide +kernel) d
    exact this hl

theorem plain_comment {v : Text} (h : PlainValue v) : ∀ c ∈ v, (!rcComment c) = true := by
  intro c hc
  have := h c hc
  have h2 := forall_byte (P := fun c => c ∉ bs "#!;%" → (!rcComment c) = true) (by decide +kernel) c
  exact h2 this

theorem space_comment : ∀ c : UInt8, isSpace c = true → (!rcComment c) = true :=
  fun c => forall_byte (P := fun c => isSpace c = true → (!rcComment c) = true) (by decide +kernel) c

theorem lit_comment {w K : Text} (hw : lower w = K) (hK : ∀ c ∈ K, (!rcComment c) = true) : ∀ c ∈ w, (!rcComment c) = true := by
  intro c hc
  have h1 : toLower c ∈ K := by rw [← hw]; exact List.mem_map.2 ⟨c, hc, rfl⟩
  have h2 := forall_byte (P := fun c => (!rcComment (toLower c)) = true → (!rcComment c) = true) (by decide +kernel) c
  exact h2 (hK _ h1)

theorem strip_named {ind w v K : Text} (hi : ∀ c ∈ ind, isSpace c = true) (hw : lower w = K) (hK : ∀ c ∈ K, (!rcComment c) = true)
    (hK' : ∃ c, K.head? = some c ∧ isLower c = true) (hv : PlainValue v) :
    ∃ c p, ((ind ++ w ++ v).takeWhile fun c => !rcComment c).dropWhile isSpace = c :: p ∧ c :: p = w ++ v := by
  have : (ind ++ w ++ v).takeWhile (fun c => !rcComment c) = ind ++ w ++ v := by
    apply takeWhile_self
    intro c hc
    rcases List.mem_append.1 hc with hc | hc
    · rcases List.mem_append.1 hc with hc | hc
      · exact space_comment c (hi c hc)
      · exact lit_comment hw hK c hc
    · exact plain_comment hv c hc
  rw [this]
  obtain ⟨c, w', rfl, hc⟩ := notSpace_lit hw hK'
  refine ⟨c, w' ++ v, ?_, rfl⟩
  rw [List.append_assoc, List.dropWhile_append_of_pos hi]
  rw [List.cons_append, List.dropWhile_cons_of_neg (by simp [hc])]

theorem setName_ok (k : SetKey) : (∀ c ∈ k.name, (!rcComment c) = true) ∧ ∃ c, k.name.head? = some c ∧ isLower c = true := by
  cases k <;> exact ⟨by decide +kernel, _, rfl, by decide +kernel⟩

theorem listName_ok (k : ListKey) : (∀ c ∈ k.name, (!rcComment c) = true) ∧ ∃ c, k.name.head? = some c ∧ isLower c = true := by
  cases k <;> exact ⟨by decide +kernel, _, rfl, by decide +kernel⟩

theorem flagName_ok (k : FlagKey) : (∀ c ∈ k.name, (!rcComment c) = true) ∧ ∃ c, k.name.head? = some c ∧ isLower c = true := by
  cases k <;> exact ⟨by decide +kernel, _, rfl, by decide +kernel⟩

/-- One line of the file. -/
theorem rcLine_item (e : Env) (rc : Rc) {i : RcItem} {t : Text} (hi : i.Writes t) (ht : LineOk t) {s : Text} (hs : s = bs "\n" ∨ (s = [] ∧ t ≠ []))
    {r : Text} (hr : StandsFor e (itemValue i) r) : rcLine e rc (t ++ s) = .ok (itemDo rc r i) := by
  rw [rcLine_text e rc ht hs]
  cases hi with
  | blank h =>
    have : t.takeWhile (fun c => !rcComment c) = t := takeWhile_self fun c hc => space_comment c (h c hc)
    rw [this, dropWhile_none h]
    rfl
  | comment =>
    rename_i t
    have : (bs "#" ++ t).takeWhile (fun c => !rcComment c) = [] := rfl
    rw [this]
    rfl
  | set h hw hv =>
    obtain ⟨c, p, h1, h2⟩ := strip_named h hw (setName_ok _).1 (setName_ok _).2 hv
    rw [h1]
    dsimp only
    rw [h2]
    exact rcOption_set e rc hw hr
  | list h hw hv =>
    obtain ⟨c, p, h1, h2⟩ := strip_named h hw (listName_ok _).1 (listName_ok _).2 hv
    rw [h1]
    dsimp only
    rw [h2]
    exact rcOption_list e rc hw hr
  | flag h hw hv =>
    obtain ⟨c, p, h1, h2⟩ := strip_named h hw (flagName_ok _).1 (flagName_ok _).2 hv
    rw [h1]
    dsimp only
    rw [h2]
    exact rcOption_flag e rc r hw
  | format h hw hv =>
    obtain ⟨c, p, h1, h2⟩ := strip_named h hw (by decide +kernel) ⟨_, rfl, by decide +kernel⟩ hv
    rw [h1]
    dsimp only
    rw [h2]
    exact rcOption_format e rc hw hr

theorem fgets_line : ∀ (t : Text) (n : Nat) (r : Text), 0x0a ∉ t → t.length < n → fgetsLine n (t ++ 0x0a :: r) = (t ++ [0x0a], r)
  | [], n + 1, r, _, _ => by simp [fgetsLine]
  | c :: t, n + 1, r, h, hn => by
    simp only [List.mem_cons, not_or] at h
    simp only [List.cons_append, fgetsLine]
    rw [if_neg (fun e => h.1 e.symm), fgets_line t n r h.2 (by simpa using hn)]

theorem fgets_last : ∀ (t : Text) (n : Nat), 0x0a ∉ t → t.length < n → fgetsLine n t = (t, [])
  | [], n, _, _ => by simp [fgetsLine]
  | c :: t, n + 1, h, hn => by
    simp only [List.mem_cons, not_or] at h
    simp only [fgetsLine]
    rw [if_neg (fun e => h.1 e.symm), fgets_last t n h.2 (by simpa using hn)]

/-- All lines in order. -/
theorem rcLoop_items (e : Env) {P : List RcItem → Rc → Prop}
    (step : ∀ is rc i r, P is rc → StandsFor e (itemValue i) r → P (is ++ [i]) (itemDo rc r i)) {is : List RcItem} {text : Text} (h : WritesRc is text) :
    ∀ done rc fuel, P done rc → text.length < fuel → ∃ rc', rcLoop e fuel rc text = .ok rc' ∧ P (done ++ is) rc' := by
  induction h with
  | nil =>
    intro done rc fuel hp hf
    cases fuel with
    | zero => simp at hf
    | succ fuel => exact ⟨rc, rfl, by simpa using hp⟩
  | @last i t hi ht hne =>
    intro done rc fuel hp hf
    obtain ⟨r, _, hr, _⟩ := C31_expand e (itemValue i)
    have h1 := rcLine_item e rc hi ht (s := []) (Or.inr ⟨rfl, hne⟩) hr
    cases t with
    | nil => exact absurd rfl hne
    | cons c t =>
      match fuel, hf with
      | fuel + 2, _ =>
        refine ⟨_, ?_, step done rc i r hp hr⟩
        have hc : (c :: t).length < 4095 := by have := ht.1; omega
        rw [rcLoop, fgets_last (c :: t) 4095 ht.2.2 hc]
        dsimp only
        rw [List.append_nil] at h1
        rw [h1]
        rfl
      | 1, hf => simp at hf
  | @line i t is r hi ht _ ih =>
    intro done rc fuel hp hf
    obtain ⟨x, _, hx, _⟩ := C31_expand e (itemValue i)
    have h1 := rcLine_item e rc hi ht (s := bs "\n") (Or.inl rfl) hx
    cases fuel with
    | zero => simp at hf
    | succ fuel =>
      obtain ⟨rc', h2, h3⟩ := ih (done ++ [i]) (itemDo rc x i) fuel (step done rc i x hp hx) (by simp at hf; omega)
      refine ⟨rc', ?_, by simpa using h3⟩
      have hc : t.length < 4095 := by have := ht.1; omega
      have hg := fgets_line t 4095 r ht.2.2 hc
      cases hq : t ++ 0x0a :: r with
      | nil => simp at hq
      | cons a b =>
        rw [rcLoop]
        rw [hq] at hg
        rw [hg]
        dsimp only
        have : t ++ [0x0a] = t ++ bs "\n" := rfl
        rw [this, h1]
        exact h2

end Mairix
