import Verif.Proofs.MboxUpdate
import Verif.Props.Mbox

/-! `build_mbox_lists`. -/

namespace Mairix
open Spec

def asListed (e : Extant) : Listed := ⟨.file, e.path⟩

theorem lookupExtantLoop_eq (l : List Extant) (key : Text) : ∀ (fuel lo hi : Nat) (m0 : Option Nat),
    lookupExtantLoop l key fuel lo hi m0 = lookupLoop (l.map asListed) key .file fuel lo hi m0 := by
  intro fuel
  induction fuel with
  | zero => intros; rfl
  | succ fuel ih =>
    intro lo hi m0
    simp only [lookupExtantLoop, lookupLoop, List.getElem?_map]
    split
    · cases l[(hi + lo) / 2]? with
      | none => rfl
      | some e =>
        simp only [Option.map_some]
        have : lookupCompare (asListed e) key .file = strcmp e.path key := by simp [lookupCompare, asListed, Kind.mty]
        rw [this]
        cases strcmp e.path key <;> simp only [ih]
    · rfl

/-- The list of mboxen on the disc, as sorted and without duplicates. -/
def SortedExtant (extant : List Extant) : Prop := extant.Pairwise fun a b => Before a.path b.path

theorem sortedExtant_listed {l : List Extant} (h : SortedExtant l) : (l.map asListed).Pairwise ListedBefore := by
  rw [List.pairwise_map]
  exact h.imp fun h => .inr ⟨rfl, h⟩

theorem lookupExtant_spec {l : List Extant} (h : SortedExtant l) (key : Text) :
    ∃ r, lookupExtant l key = .ok r ∧
      (∀ k, r = some k → ∃ e, l[k]? = some e ∧ e.path = key) ∧ (r = none → ∀ e ∈ l, e.path ≠ key) := by
  obtain ⟨r, e, h1, h2⟩ := lookupMsgpath_spec (sortedExtant_listed h) key .file
  refine ⟨r, ?_, ?_, ?_⟩
  · rw [← e]
    unfold lookupExtant lookupMsgpath
    rw [lookupExtantLoop_eq]
    simp
  · intro k hk
    have := h1 k hk
    rw [List.getElem?_map] at this
    cases hg : l[k]? with
    | none => simp [hg] at this
    | some x =>
      rw [hg] at this
      simp [asListed] at this
      exact ⟨x, rfl, this⟩
  · intro hr e he hk
    apply h2 hr
    rw [List.mem_map]
    exact ⟨e, he, by simp [asListed, hk]⟩

theorem sortedExtant_inj {l : List Extant} (h : SortedExtant l) {i j : Nat} {a b : Extant} (h1 : l[i]? = some a)
    (h2 : l[j]? = some b) (he : a.path = b.path) : i = j := by
  rcases Nat.lt_trichotomy i j with hlt | heq | hgt
  · have := sorted_get h hlt h1 h2
    rw [he] at this; exact absurd this before_irrefl
  · exact heq
  · have := sorted_get h hgt h2 h1
    rw [he] at this; exact absurd this before_irrefl

theorem find_of_get {l : List Extant} (h : SortedExtant l) {k : Nat} {e : Extant} {p : Text} (hk : l[k]? = some e)
    (hp : e.path = p) : l.find? (·.path = p) = some e := by
  have hmem := List.mem_of_getElem? hk
  cases hf : l.find? (·.path = p) with
  | none =>
    rw [List.find?_eq_none] at hf
    have := hf e hmem
    simp [hp] at this
  | some e' =>
    have h1 := List.find?_some hf
    have h2 := List.mem_of_find?_eq_some hf
    obtain ⟨j, hj, rfl⟩ := List.mem_iff_getElem.1 h2
    simp at h1
    have hj' : l[j]? = some l[j] := by simp [hj]
    have hjk := sortedExtant_inj h hj' hk (by rw [h1, hp])
    subst hjk
    rw [hk] at hj'
    exact congrArg some (Option.some.inj hj').symm

theorem marryAll_spec {extant : List Extant} (h : SortedExtant extant) : ∀ mbs : List Mbox,
    ∃ used, marryAll extant mbs = .ok (mbs.map (married extant), used) ∧
      ∀ (k : Nat) e, extant[k]? = some e → (k ∈ used ↔ some e.path ∈ mbs.map (·.path)) := by
  intro mbs
  induction mbs with
  | nil => exact ⟨[], rfl, by simp⟩
  | cons mb mbs ih =>
    obtain ⟨used, e, hu⟩ := ih
    simp only [marryAll, e, bind, Except.bind]
    cases hp : mb.path with
    | none =>
      refine ⟨used, ?_, ?_⟩
      · simp only [List.map_cons]
        congr 3
        simp [married, hp, deadenMbox]
      · intro k e' hk
        rw [hu k e' hk]
        simp [hp]
    | some p =>
      obtain ⟨r, er, h1, h2⟩ := lookupExtant_spec h p
      simp only [er]
      cases r with
      | none =>
        have hno := h2 rfl
        have hf : extant.find? (·.path = p) = none := by
          rw [List.find?_eq_none]; intro x hx; simpa using hno x hx
        refine ⟨used, ?_, ?_⟩
        · simp only [List.map_cons]
          congr 3
          simp [married, hp, deadenMbox, hf]
        · intro k e' hk
          rw [hu k e' hk]
          simp only [List.map_cons, hp, List.mem_cons, Option.some.injEq]
          constructor
          · exact .inr
          · rintro (h' | h')
            · exact absurd h' (hno e' (List.mem_of_getElem? hk))
            · exact h'
      | some k0 =>
        obtain ⟨e0, g0, hp0⟩ := h1 k0 rfl
        simp only [g0]
        refine ⟨k0 :: used, ?_, ?_⟩
        · simp only [List.map_cons]
          congr 3
          simp only [married, hp, Option.bind_some, find_of_get h g0 hp0]
        · intro k e' hk
          simp only [List.mem_cons, hu k e' hk, List.map_cons, hp, Option.some.injEq]
          constructor
          · rintro (rfl | h')
            · rw [g0] at hk; cases hk; exact .inl hp0
            · exact .inr h'
          · rintro (h' | h')
            · exact .inl (sortedExtant_inj h hk g0 (by rw [h', hp0]))
            · exact .inr h'

theorem appendNew_spec {used : List Nat} {paths : List (Option Text)} : ∀ (es : List Extant) (i : Nat),
    (∀ (k : Nat) e, es[k]? = some e → (i + k ∈ used ↔ some e.path ∈ paths)) →
    appendNew used i es = (es.filter fun e => decide (some e.path ∉ paths)).map newMbox := by
  intro es
  induction es with
  | nil => intro i _; rfl
  | cons e es ih =>
    intro i h
    have h0 := h 0 e rfl
    rw [Nat.add_zero] at h0
    have ih' := ih (i + 1) (fun k e' hk => by
      have := h (k + 1) e' (by simpa using hk)
      rw [show i + 1 + k = i + (k + 1) by omega]; exact this)
    simp only [appendNew, List.filter_cons]
    by_cases hk : some e.path ∈ paths
    · rw [if_pos (h0.2 hk), ih']; simp [hk]
    · rw [if_neg (fun h' => hk (h0.1 h')), ih']; simp [hk]

theorem refreshMbox_spec {w : MboxWorld} {mb mb' : Mbox} (h : refreshMbox w mb = .ok mb') : Refreshed w mb mb' := by
  obtain ⟨path, ft, fz, ct, cz, nv, nm, ms⟩ := mb
  cases path with
  | none => unfold refreshMbox at h; cases h; exact .dead rfl
  | some p =>
    have hp : (some p) = some p := rfl
    unfold refreshMbox at h
    simp only at h
    split at h
    · next hsame => cases h; exact .same hp hsame.1 hsame.2
    · next hdiff =>
      cases hc : w.contents p with
      | data va =>
        rw [hc] at h
        simp only [rescanMbox, bind, Except.bind] at h
        cases hn : findNumberIntact w ⟨some p, ft, fz, ct, cz, nv, [], ms⟩ va with
        | error => rw [hn] at h; cases h
        | ok n =>
          rw [hn] at h
          simp only at h
          cases hb : buildNewMessageList w ⟨some p, ft, fz, ct, cz, n, [], ms⟩ va with
          | error => rw [hb] at h; cases h
          | ok new =>
            rw [hb] at h
            simp only [Except.ok.injEq] at h
            subst h
            exact .scanned hp hdiff hc hn hb
      | empty => rw [hc] at h; simp only at h; cases h; exact .empty hp hdiff hc
      | failed => rw [hc] at h; simp only at h; cases h; exact .failed hp hdiff hc

theorem refreshAll_spec {w : MboxWorld} : ∀ {mbs mbs' : List Mbox}, refreshAll w mbs = .ok mbs' →
    Pairs (Refreshed w) mbs mbs' := by
  intro mbs
  induction mbs with
  | nil => intro mbs' h; cases h; exact .nil
  | cons mb mbs ih =>
    intro mbs' h
    simp only [refreshAll, bind, Except.bind] at h
    cases h1 : refreshMbox w mb with
    | error => rw [h1] at h; cases h
    | ok mb1 =>
      rw [h1] at h
      simp only at h
      cases h2 : refreshAll w mbs with
      | error => rw [h2] at h; cases h
      | ok mbs1 =>
        rw [h2] at h
        cases h
        exact .cons (refreshMbox_spec h1) (ih h2)

theorem buildMboxLists_spec {w : MboxWorld} {extant : List Extant} {db db' : Database} (hs : SortedExtant extant)
    (h : buildMboxLists w extant db = .ok db') :
    ∃ mbs, db' = { db with mboxen := mbs } ∧
      Pairs (Refreshed w) (db.mboxen.map (married extant) ++ newBoxes extant db.mboxen) mbs := by
  unfold buildMboxLists at h
  split at h
  · cases h
  · obtain ⟨used, e, hu⟩ := marryAll_spec hs db.mboxen
    have ha := appendNew_spec (used := used) (paths := db.mboxen.map (·.path)) extant 0 (by simpa using hu)
    simp only [e, bind, Except.bind, ha] at h
    cases hr : refreshAll w (db.mboxen.map (married extant) ++ newBoxes extant db.mboxen) with
    | error x => unfold newBoxes at hr; rw [hr] at h; cases h
    | ok mbs =>
      have hr' := hr
      unfold newBoxes at hr; rw [hr] at h
      cases h
      exact ⟨mbs, rfl, refreshAll_spec hr'⟩

/-- Parts found by scanning lie in the file. -/
theorem splits_in_file {isFrom : Text → Bool} {va : Text} {base : Nat} {l : List (Nat × Nat)} (h : Splits isFrom va base l) :
    ∀ c ∈ l, c.1 + c.2 ≤ va.length := fun c hc => ((C29_tiles h).1 c hc).2.1

theorem mmdfLine_le {va : Text} {base p : Nat} (h : MmdfLine va base p) : p + 5 ≤ va.length := by
  obtain ⟨_, rest, e⟩ := h
  have := congrArg List.length e
  simp at this
  omega

theorem mmdf_in_file {va : Text} {base : Nat} {l : List (Nat × Nat)} (h : MmdfSplits va base l) :
    ∀ c ∈ l, c.1 + c.2 ≤ va.length := by
  induction h with
  | none => simp
  | last h1 _ =>
    intro c hc
    simp only [List.mem_singleton] at hc
    subst hc
    have := mmdfLine_le h1
    simp only; omega
  | more h1 h2 _ ih =>
    intro c hc
    rcases List.mem_cons.1 hc with rfl | hc
    · have := mmdfLine_le h2.2.1
      have := h2.1
      simp only; omega
    · exact ih c hc

theorem buildNew_in_file {w : MboxWorld} {mb : Mbox} {va : Text} {l : List (Nat × Nat)}
    (h : buildNewMessageList w mb va = .ok l) : ∀ c ∈ l, c.1 + c.2 ≤ va.length := by
  cases hb : scanStart mb va with
  | error x => simp only [buildNewMessageList, hb, bind, Except.bind] at h; cases h
  | ok base =>
    obtain ⟨l', e, h1, h2⟩ := C29_split w mb va base hb
    rw [e] at h
    cases h
    cases hm : isMmdf va with
    | false => exact splits_in_file (h1 hm)
    | true =>
      rcases h2 hm with ⟨_, rfl⟩ | ⟨p, _, h3⟩
      · simp
      · exact mmdf_in_file h3

theorem ready_of_refreshed {w : MboxWorld} {mb mb' : Mbox} (h : Refreshed w mb mb') : Ready w mb' := by
  cases h with
  | dead => intro h; simp at h
  | same => intro h; simp at h
  | empty => intro h; simp at h
  | failed => intro h; simp at h
  | scanned hp hd hc hn hb => intro _; exact ⟨_, _, hp, hc, buildNew_in_file hb⟩

theorem pairs_right {α β : Type} {R : α → β → Prop} {l : List α} {l' : List β} (h : Pairs R l l') {b : β} (hb : b ∈ l') :
    ∃ a ∈ l, R a b := by
  induction h with
  | nil => cases hb
  | cons h1 _ ih =>
    rcases List.mem_cons.1 hb with rfl | hb
    · exact ⟨_, List.mem_cons_self .., h1⟩
    · obtain ⟨a, ha, hr⟩ := ih hb
      exact ⟨a, List.mem_cons_of_mem _ ha, hr⟩

theorem pairs_get {α β : Type} {R : α → β → Prop} {l : List α} {l' : List β} (h : Pairs R l l') : ∀ (i : Nat) (a : α),
    l[i]? = some a → ∃ b, l'[i]? = some b ∧ R a b := by
  induction h with
  | nil => intro i a h; simp at h
  | cons h1 _ ih =>
    intro i a h
    cases i with
    | zero => simp at h; subst h; exact ⟨_, rfl, h1⟩
    | succ i => simp at h; simpa using ih i a h

theorem pairs_get' {α β : Type} {R : α → β → Prop} {l : List α} {l' : List β} (h : Pairs R l l') : ∀ (i : Nat) (b : β),
    l'[i]? = some b → ∃ a, l[i]? = some a ∧ R a b := by
  induction h with
  | nil => intro i a h; simp at h
  | cons h1 _ ih =>
    intro i a h
    cases i with
    | zero => simp at h; subst h; exact ⟨_, rfl, h1⟩
    | succ i => simp at h; simpa using ih i a h

end Mairix
