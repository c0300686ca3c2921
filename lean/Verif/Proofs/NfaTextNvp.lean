import Verif.Model.NfaTexts
import Verif.Model.NfaFiles

/-! # nvp.nfa is read as Model/NfaFiles.lean has it -/

namespace Mairix

set_option maxRecDepth 100000 in
theorem nvpscan_text : readNfaText nvpscanText = .ok nvpscanFile := by decide +kernel

end Mairix
