import Verif.Proofs.CullFuel
import Verif.Proofs.DbLoad

/-! A load that succeeds does not depend on values that were never initialised. -/

namespace Mairix
open Spec

/-- The same values, with those that would be too large replaced. -/
def tame (n : Nat) (junk : Text → Nat) (w : Text) : Nat := if junk w < n then junk w else 0

theorem readerCopy_tame (n : Nat) (junk : Text → Nat) (w : Text) (b : List UInt8) (h : (readerCopy (junk w) b).highest < n) :
    readerCopy (tame n junk w) b = readerCopy (junk w) b := by
  unfold readerCopy at h ⊢
  simp only at h ⊢
  cases hl : (readLoop b.length 0 b).1.getLast? with
  | some v => rfl
  | none =>
    rw [hl, Option.getD_none] at h
    simp only [tame, h, if_true]

theorem importLoop_ok {α : Type} {hash : Text → Nat} {check : Bool} {ok : α → Bool} : ∀ (toks : List (Text × α))
    (slots slots' : List (Option (Entry α))), importLoop hash check ok toks slots = .ok slots' → ∀ p ∈ toks, ok p.2 = true := by
  intro toks
  induction toks with
  | nil => intro _ _ _ p hp; cases hp
  | cons q toks ih =>
    intro slots slots' h p hp
    obtain ⟨text, d⟩ := q
    simp only [importLoop] at h
    split at h
    · next hd =>
      obtain ⟨i, _, h⟩ := res_bind_ok h
      rcases List.mem_cons.1 hp with rfl | hp
      · exact hd
      · exact ih _ _ h p hp
    · cases h

theorem importTable_ok {α : Type} {hash : Text → Nat} {check : Bool} {ok : α → Bool} {toks : List (Text × α)} {t : Table α}
    (h : importTable hash check ok toks = .ok t) : ∀ p ∈ toks, ok p.2 = true := by
  unfold importTable at h
  obtain ⟨s, h1, _⟩ := res_bind_ok h
  exact importLoop_ok _ _ _ h1

theorem loadTable_tame {hash : Text → Nat} {n : Nat} {junk : Text → Nat} {toks : List (Text × List UInt8)} {t : Table Matches}
    (h : loadTable hash n junk toks = .ok t) : loadTable hash n (tame n junk) toks = .ok t := by
  have := importTable_ok h
  rw [← h]
  unfold loadTable
  congr 1
  apply List.map_congr_left
  intro p hp
  have h1 := this _ (List.mem_map_of_mem hp)
  simp only [decide_eq_true_eq] at h1
  rw [readerCopy_tame n junk p.1 p.2 h1]

theorem loadTable2_tame {hash : Text → Nat} {n : Nat} {junk : Text → Nat} {toks : List (Text × List UInt8 × List UInt8)}
    {t : Table Matches2} (h : loadTable2 hash n junk junk toks = .ok t) :
    loadTable2 hash n (tame n junk) (tame n junk) toks = .ok t := by
  have := importTable_ok h
  rw [← h]
  unfold loadTable2
  congr 1
  apply List.map_congr_left
  intro p hp
  have h1 := this _ (List.mem_map_of_mem hp)
  simp only [Bool.and_eq_true, decide_eq_true_eq] at h1
  rw [readerCopy_tame n junk p.1 _ h1.1, readerCopy_tame n junk p.1 _ h1.2]

theorem loadTableFrom_tame {hash : Text → Nat} {n : Nat} {junk : Text → Nat} {data : Text} {rt : RawTable} {t : Table Matches}
    (h : loadTableFrom hash n junk data rt = .ok t) : loadTableFrom hash n (tame n junk) data rt = .ok t := by
  unfold loadTableFrom at h ⊢
  obtain ⟨a, h1, h⟩ := res_bind_ok h
  obtain ⟨b, h2, h⟩ := res_bind_ok h
  simp only [h1, h2, bind, Except.bind]
  exact loadTable_tame h

theorem loadTable2From_tame {hash : Text → Nat} {n : Nat} {junk : Text → Nat} {data : Text} {rt : RawTable2} {t : Table Matches2}
    (h : loadTable2From hash n junk junk data rt = .ok t) : loadTable2From hash n (tame n junk) (tame n junk) data rt = .ok t := by
  unfold loadTable2From at h ⊢
  obtain ⟨a, h1, h⟩ := res_bind_ok h
  obtain ⟨b, h2, h⟩ := res_bind_ok h
  simp only [h1, h2, bind, Except.bind]
  exact loadTable2_tame h

theorem loadTables_tame {hash : Text → Nat} {junk : Text → Nat} {r : RawDb} {t : Tables} (h : loadTables hash junk r = .ok t) :
    loadTables hash (tame (loopBound r.nMsgs) junk) r = .ok t := by
  unfold loadTables at h ⊢
  obtain ⟨t1, h1, h⟩ := res_bind_ok h
  obtain ⟨t2, h2, h⟩ := res_bind_ok h
  obtain ⟨t3, h3, h⟩ := res_bind_ok h
  obtain ⟨t4, h4, h⟩ := res_bind_ok h
  obtain ⟨t5, h5, h⟩ := res_bind_ok h
  obtain ⟨t6, h6, h⟩ := res_bind_ok h
  obtain ⟨t7, h7, h⟩ := res_bind_ok h
  simp only [loadTableFrom_tame h1, loadTableFrom_tame h2, loadTableFrom_tame h3, loadTableFrom_tame h4,
    loadTableFrom_tame h5, loadTableFrom_tame h6, loadTable2From_tame h7, bind, Except.bind]
  exact h

theorem loadDatabase_tame {hashfn : Nat → Text → Nat} {junk : Text → Nat} {r : RawDb} {db : Database}
    (h : loadDatabase hashfn junk r = .ok db) : loadDatabase hashfn (tame (loopBound r.nMsgs) junk) r = .ok db := by
  unfold loadDatabase at h ⊢
  obtain ⟨a, h1, h⟩ := res_bind_ok h
  obtain ⟨b, h2, h⟩ := res_bind_ok h
  obtain ⟨c, h3, h⟩ := res_bind_ok h
  obtain ⟨d, h4, h⟩ := res_bind_ok h
  simp only [h1, h2, h3, loadTables_tame h4, bind, Except.bind]
  exact h

/-- What a load that succeeds gives. -/
theorem loadDatabase_ok {key : Nat} {db : Database} {d : Text} {ws : List Write} (h : Written key db d ws) (hc : CStrings db)
    (hk : ∀ mb ∈ db.mboxen, ∀ e ∈ mb.msgs, e.check.length = 16)
    {hash : Text → Nat} {ix : List MsgWords} (hg : GoodDb hash db ix) {hashfn : Nat → Text → Nat} {junk : Text → Nat}
    {db' : Database} (e : loadDatabase hashfn junk (rawOf key db d) = .ok db') :
    Pairs SavedMsg db.msgs db'.msgs ∧ db'.mboxen.length = db.mboxen.length ∧
      (∀ (fi : Nat) mb, db.mboxen[fi]? = some mb → ∃ mb', db'.mboxen[fi]? = some mb' ∧ SavedBox (boxIdx db.msgs fi).length mb mb') ∧
      GoodDb (hashfn (key % 2 ^ 32)) db' ix ∧ Loaded db' := by
  have hn : (rawOf key db d).nMsgs = db.msgs.length := rfl
  obtain ⟨s0, s1, _⟩ := table_small h.small
  have hb : loopBound (rawOf key db d).nMsgs = db.msgs.length := by
    rw [hn, loopBound, if_pos (by omega)]
  have e' := loadDatabase_tame e
  rw [hb] at e'
  obtain ⟨db'', e2, r⟩ := loadDatabase_spec h hc hk hg hashfn (tame db.msgs.length junk) (by
    intro hne w
    have : db.msgs.length ≠ 0 := fun h0 => hne (List.eq_nil_of_length_eq_zero h0)
    unfold tame
    split <;> omega)
  rw [e'] at e2
  cases e2
  exact r

end Mairix
