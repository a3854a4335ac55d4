import Verif.Lemmas.Bip39Def
import Verif.Model.Bip39.ChineseSimplified
import Verif.Model.Bip39.English
import Verif.Model.Bip39.Japanese
import Verif.Model.Bip39.Spanish

namespace Cardano.Mnemonic

theorem chineseSimplified_ok : tableOk Bip39.chineseSimplified = true := by decide +kernel
theorem english_ok : tableOk Bip39.english = true := by decide +kernel
theorem japanese_ok : tableOk Bip39.japanese = true := by decide +kernel
theorem spanish_ok : tableOk Bip39.spanish = true := by decide +kernel

end Cardano.Mnemonic
