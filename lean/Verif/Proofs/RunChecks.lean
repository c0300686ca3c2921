import Verif.Proofs.RunSpec

/-! The integrity checks make no difference. -/

namespace Mairix
open Spec

/-- The same run without integrity checks. -/
def Run.unchecked (r : Run) : Run := { r with checks := false }

theorem check_good {r : Run} (hr : Sane r) {hash : Text → Nat} {db : Database} {ix : List MsgWords} (h : GoodDb hash db ix) :
    r.check db = .ok () := by
  unfold Run.check
  split
  · exact checkIntegrity_spec hr.sortTexts hr.sortTokens _ h
  · rfl

theorem check_unchecked (r : Run) (db : Database) : r.unchecked.check db = .ok () := rfl

theorem openOrNew_unchecked {hashfn : Nat → Text → Nat} {hist : List Run} {r : Run} {f : Option Text} {db : Database} {ix : List MsgWords}
    (h : Holds hist f db ix) (hr : Sane r) : openOrNew hashfn r f = openOrNew hashfn r.unchecked f := by
  obtain ⟨⟨hash, hm⟩, hf⟩ := h
  cases f with
  | none => rfl
  | some d =>
    obtain ⟨key, ws, hw⟩ := hf
    have hc := cstrings_of hm.good hm.words hm.paths
    simp only [openOrNew, openDb_spec hw, bind, Except.bind, check_unchecked]
    rw [show r.unchecked.junkHighest = r.junkHighest from rfl]
    cases hl : loadDatabase hashfn r.junkHighest (rawOf key db d) with
    | error e => rfl
    | ok db2 =>
      obtain ⟨_, _, _, l4, _⟩ := loadDatabase_ok hw hc hm.paths.checks hm.good hl
      simp only [check_good hr l4]

theorem indexRun_unchecked {hashfn : Nat → Text → Nat} {hist : List Run} {r : Run} {f : Option Text} {db : Database} {ix : List MsgWords}
    (h : Holds hist f db ix) (hh : ∀ r ∈ hist, Sane r) (hr : Sane r) : indexRun hashfn r f = indexRun hashfn r.unchecked f := by
  unfold indexRun
  rw [show checkDuplicates r.unchecked.sortTexts r.unchecked.listed = checkDuplicates r.sortTexts r.listed from rfl]
  split
  · rfl
  rename_i hd
  have hn : r.listed.Nodup := by
    have := (checkDuplicates_spec hr.sortTexts r.listed).1
    cases hc : checkDuplicates r.sortTexts r.listed with
    | false => exact this hc
    | true => rw [hc] at hd; simp at hd
  have hh' : ∀ r' ∈ hist ++ [r], Sane r' := by
    intro r' hr'
    rcases List.mem_append.1 hr' with h1 | h1
    · exact hh r' h1
    · rw [List.mem_singleton] at h1; rw [h1]; exact hr
  rw [← openOrNew_unchecked h hr]
  cases e1 : openOrNew hashfn r f with
  | error e => rfl
  | ok kd =>
    obtain ⟨key, db1⟩ := kd
    obtain ⟨o1, o2, _, _⟩ := open_ok h hh e1
    simp only [bind, Except.bind]
    rw [show updateStep hashfn r.unchecked key db1 = updateStep hashfn r key db1 from rfl]
    cases e2 : updateStep hashfn r key db1 with
    | error e => rfl
    | ok db2b =>
      obtain ⟨db2, b2⟩ := db2b
      obtain ⟨ix2, u1, u2, _⟩ := update_ok o1 o2 hr hh hn e2
      have hp : purgeStep r.unchecked db2 = purgeStep r db2 := by
        unfold purgeStep
        rw [check_good hr u1.good, check_unchecked]
        rfl
      simp only [hp]
      cases e3 : purgeStep r db2 with
      | error e => rfl
      | ok db3b =>
        obtain ⟨db3, b3⟩ := db3b
        obtain ⟨ix3, p1, p2⟩ := purge_ok u1 u2 (by simp) hh' e3
        simp only [writeStep, check_good hr p1.good, check_unchecked]

theorem indexRuns_unchecked {hashfn : Nat → Text → Nat} : ∀ (rs : List Run) (hist : List Run) {f : Option Text} {db : Database}
    {ix : List MsgWords}, Holds hist f db ix → (∀ r ∈ hist, Sane r) → (∀ r ∈ rs, Sane r) →
    indexRuns hashfn rs f = indexRuns hashfn (rs.map Run.unchecked) f := by
  intro rs
  induction rs with
  | nil => intro hist f db ix _ _ _; rfl
  | cons r rs ih =>
    intro hist f db ix h hh hs
    simp only [indexRuns, List.map_cons]
    rw [← indexRun_unchecked h hh (hs r (by simp))]
    cases e : indexRun hashfn r f with
    | error e => rfl
    | ok f1 =>
      obtain ⟨db1, ix1, h1, _⟩ := indexRun_ok h hh (hs r (by simp)) e
      simp only [bind, Except.bind]
      refine ih (hist ++ [r]) h1 ?_ (fun r' h' => hs r' (by simp [h']))
      intro r' hr'
      rcases List.mem_append.1 hr' with h1 | h1
      · exact hh r' h1
      · rw [List.mem_singleton] at h1; rw [h1]; exact hs r (by simp)

end Mairix
