import Verif.Model.NfaTexts
import Verif.Model.NfaFiles
import Verif.Proofs.NfaLex
import Verif.Proofs.NfaParseOnly
import Verif.Proofs.NfaTextDate
import Verif.Proofs.NfaTextNvp
import Verif.Props.Again
import Verif.Props.AugmentBoxesExamples
import Verif.Props.AugmentGrownExamples
import Verif.Props.Dotlock
import Verif.Props.Dump
import Verif.Props.Encoding
import Verif.Props.Hash
import Verif.Props.Imap
import Verif.Props.ImapLogin
import Verif.Props.IntegrityMore
import Verif.Props.Mapping
import Verif.Props.Md5
import Verif.Props.MimeSafe
import Verif.Props.Options
import Verif.Props.Scanners
import Verif.Props.ThreadsMbox
import Verif.Props.ThreadsTerminal
import Verif.Props.UpdateExamples
import Verif.Props.Version

/-! # fromcheck.nfa is read as Model/NfaFiles.lean has it

The computation below needs almost 7 GB. Only the first two imports are used; the others are all modules that no module imports, so that this one is built after them and not beside them. -/

namespace Mairix

set_option maxRecDepth 100000 in
theorem fromcheck_text : readNfaText fromcheckText = .ok fromcheckFile := by decide +kernel

end Mairix
