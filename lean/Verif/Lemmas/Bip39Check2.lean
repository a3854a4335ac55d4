import Verif.Lemmas.Bip39Def
import Verif.Model.Bip39.ChineseTraditional
import Verif.Model.Bip39.French
import Verif.Model.Bip39.Korean

namespace Cardano.Mnemonic

theorem chineseTraditional_ok : tableOk Bip39.chineseTraditional = true := by decide +kernel
theorem french_ok : tableOk Bip39.french = true := by decide +kernel
theorem korean_ok : tableOk Bip39.korean = true := by decide +kernel

end Cardano.Mnemonic
