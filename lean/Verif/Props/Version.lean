import Verif.Model.DbFile

/-!
# C37: files of another version, and other files
-/

namespace Mairix

/-- **C37, refusal.** A file long enough for a header is refused with status 2 if its fourth byte is not the version number 4, and also if its first three bytes all differ from those of a database, whatever else is in it. -/
theorem C37_version_refused {data : Text} (hlong : 160 ≤ data.length) (hshort : data.length < 2 ^ 31)
    (h : data[3]? ≠ some 4 ∨ (data[0]? ≠ some 0x4d ∧ data[1]? ≠ some 0x58 ∧ data[2]? ≠ some 0xa5)) :
    openDb data = .error (.exit 2) := by
  have hm : magicOk data = false := by
    unfold magicOk
    rcases h with h | ⟨h0, h1, h2⟩
    · simp [h]
    · simp [h0, h1, h2]
  have hl : ¬ data.length ≥ 2 ^ 31 := by omega
  unfold openDb
  simp only [if_neg hl, hlong, hm, require, decide_true, if_true, bind, Except.bind]
  rfl

/-- The hypotheses are met by a header of version 3, and by a file of zeros. -/
example : openDb ([0x4d, 0x58, 0xa5, 3] ++ List.replicate 156 0) = .error (.exit 2) ∧ openDb (List.replicate 160 0) = .error (.exit 2) :=
  ⟨C37_version_refused (by simp) (by simp) (Or.inl (by simp)), C37_version_refused (by simp) (by simp) (Or.inl (by simp))⟩

end Mairix
