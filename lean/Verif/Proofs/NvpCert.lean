import Verif.Proofs.NvpData
import Verif.Proofs.Bytes

/-!
# The certificate for nvp.nfa
-/

namespace Mairix
open Spec

theorem nvp_rows : RowsOk nvpAuto nvpGroups nvpClosures nvpRows := ⟨by decide +kernel, by decide +kernel, by decide +kernel, by decide +kernel⟩

theorem nvp_tables : TablesOk nvpAuto nvpGroups nvpReps nvpTables := ⟨rfl, by decide +kernel, by decide +kernel, by decide +kernel, by decide +kernel⟩

/-- The step in the list of the states of the model. -/
def nvpModelStep (m g : Nat) : Nat := (nvpModelNext.getD m []).getD (nvpTokOf.getD g 0) 0

/-- The attributes agree, and there is a state in both or in none. -/
def nvpAgree (s m : Nat) : Bool := agree nvpEnds s (nvpMarks.getD m 0) && (Nat.beq s 0 == !(Nat.testBit (nvpMarks.getD m 0) 11))

/-- Some pairs. -/
abbrev NvpIn (i j : Nat) : Prop := PairsIn Nat.beq nvpModelStep nvpRows nvpTables nvpAgree nvpPairs 64 18 i j

theorem nvp_pairs0 : NvpIn 0 (0 + nvpSucc0.length) := checkPairs_in (by decide +kernel)

theorem nvp_pairs1 : NvpIn 16 (16 + nvpSucc1.length) := checkPairs_in (by decide +kernel)

theorem nvp_pairs2 : NvpIn 32 (32 + nvpSucc2.length) := checkPairs_in (by decide +kernel)

theorem nvp_pairs3 : NvpIn 48 (48 + nvpSucc3.length) := checkPairs_in (by decide +kernel)

theorem nvp_pairs : PairsOk Nat.beq nvpModelStep nvpRows nvpTables nvpAgree nvpPairs 64 18 (nvpClosures.get 0).1 0 :=
  ⟨nvp_pairs0.append (nvp_pairs1.append (nvp_pairs2.append (nvp_pairs3))), by decide +kernel⟩

/-- The states of the model are listed. -/
theorem nvp_model : ∀ i < 44, ∀ k < 17, nvpNext (nvpModel.getD i []) (nvpToks.getD k .bad) = nvpModel.getD ((nvpModelNext.getD i []).getD k 0) [] ∧
    (nvpModelNext.getD i []).getD k 0 < 44 := by decide +kernel

theorem nvp_model_in : nvpModel.getD 0 [] = nvpIn := by decide +kernel

/-- The names of the copiers (nvptypes.h). -/
def nvpCopierMarks (i : Nat) : Bool := [NvpCopier.name, .minor, .value].zipIdx.all fun x => (nvpCopierOf (nvpModel.getD i []) == x.1) == Nat.testBit (nvpMarks.getD i 0) x.2

/-- The names of the actions (nvptypes.h). -/
def nvpActionMarks (i : Nat) : Bool := [NvpAction.nameValue, .nameValueCont, .nameValueCset, .nameValueCcont, .name, .nameSpace, .majorMinor, .terminator].zipIdx.all fun x =>
  (nvpActionOf (nvpModel.getD i []) == x.1) == Nat.testBit (nvpMarks.getD i 0) (x.2 + 3)

theorem nvp_marks : ∀ i < 44, nvpCopierMarks i = true ∧ nvpActionMarks i = true ∧ (nvpModel.getD i []).isEmpty = !(Nat.testBit (nvpMarks.getD i 0) 11) := by decide +kernel

/-- The group of a character. -/
def nvpGroup (c : UInt8) : Nat := nvpGroups.of (.chr c)

theorem nvp_toks : ∀ c : UInt8, nvpTok c = nvpToks.getD (nvpTokOf.getD (nvpGroup c) 0) .bad := forall_byte (by decide +kernel)

theorem nvp_eos : nvpToks.getD (nvpTokOf.getD (nvpGroups.of (.tok 0)) 0) .bad = .eos := by decide +kernel

theorem nvp_toks_lt : ∀ k ∈ nvpTokOf, k < 17 := by decide +kernel

end Mairix
