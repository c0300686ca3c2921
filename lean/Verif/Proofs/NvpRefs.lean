import Verif.Proofs.NvpBlocks
import Verif.Proofs.NvpData
import Verif.Proofs.NfaSteps

/-!
# nvp.nfa: where the transitions lead
-/

namespace Mairix

/-- The references in some of the states. -/
abbrev NvpRefs (k n : Nat) : Prop := statesOk nvpMainBlock.states ((nvpMainBlock.states.drop k).take n) ((nvpStates.drop k).take n) = true

theorem nvp_refs0 : NvpRefs 0 118 := by decide +kernel

theorem nvp_refs1 : NvpRefs 118 118 := by decide +kernel

theorem nvp_refs2 : NvpRefs 236 118 := by decide +kernel

theorem nvp_refs3 : NvpRefs 354 118 := by decide +kernel

theorem nvp_refs4 : NvpRefs 472 118 := by decide +kernel

theorem nvp_refs5 : NvpRefs 590 118 := by decide +kernel

theorem nvp_refs_end : statesOk nvpMainBlock.states (nvpMainBlock.states.drop 708) (nvpStates.drop 708) = true := by decide +kernel

theorem nvp_refs : statesOk nvpMainBlock.states nvpMainBlock.states nvpStates = true :=
  statesOk_from (k := 0) (j := 118) rfl nvp_refs0 (statesOk_from (k := 118) (j := 236) rfl nvp_refs1 (statesOk_from (k := 236) (j := 354) rfl nvp_refs2 (statesOk_from (k := 354) (j := 472) rfl nvp_refs3 (statesOk_from (k := 472) (j := 590) rfl nvp_refs4 (statesOk_from (k := 590) (j := 708) rfl nvp_refs5 nvp_refs_end)))))

end Mairix
