import Verif.Model.NfaTexts
import Verif.Model.NfaFiles

/-! # datescan.nfa is read as Model/NfaFiles.lean has it -/

namespace Mairix

set_option maxRecDepth 100000 in
theorem datescan_text : readNfaText datescanText = .ok datescanFile := by decide +kernel

end Mairix
