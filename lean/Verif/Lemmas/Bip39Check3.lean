import Verif.Lemmas.Bip39Def
import Verif.Model.Bip39.Czech
import Verif.Model.Bip39.Italian
import Verif.Model.Bip39.Portuguese

namespace Cardano.Mnemonic

theorem czech_ok : tableOk Bip39.czech = true := by decide +kernel
theorem italian_ok : tableOk Bip39.italian = true := by decide +kernel
theorem portuguese_ok : tableOk Bip39.portuguese = true := by decide +kernel

end Cardano.Mnemonic
