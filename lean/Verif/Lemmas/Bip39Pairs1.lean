import Verif.Lemmas.Bip39Trees
import Verif.Model.Bip39.ChineseSimplified
import Verif.Model.Bip39.ChineseTraditional
import Verif.Model.Bip39.Czech
import Verif.Model.Bip39.English
import Verif.Model.Bip39.French
import Verif.Model.Bip39.Italian
import Verif.Model.Bip39.Japanese
import Verif.Model.Bip39.Korean
import Verif.Model.Bip39.Portuguese
import Verif.Model.Bip39.Spanish

/-! Words common to two dictionaries: what the search trees answer (generated). -/

namespace Cardano.Mnemonic

theorem inCzech : allIn tCzech Bip39.czech = true := by decide +kernel
theorem noCzechEnglish : noneIn tCzech Bip39.english = true := by decide +kernel
theorem noCzechFrench : noneIn tCzech Bip39.french = true := by decide +kernel
theorem noCzechItalian : noneIn tCzech Bip39.italian = true := by decide +kernel
theorem noCzechJapanese : noneIn tCzech Bip39.japanese = true := by decide +kernel
theorem noCzechKorean : noneIn tCzech Bip39.korean = true := by decide +kernel
theorem noCzechPortuguese : noneIn tCzech Bip39.portuguese = true := by decide +kernel
theorem noCzechSpanish : noneIn tCzech Bip39.spanish = true := by decide +kernel
theorem noCzechChineseSimplified : noneIn tCzech Bip39.chineseSimplified = true := by decide +kernel
theorem noCzechChineseTraditional : noneIn tCzech Bip39.chineseTraditional = true := by decide +kernel
theorem inEnglish : allIn tEnglish Bip39.english = true := by decide +kernel
theorem noEnglishItalian : noneIn tEnglish Bip39.italian = true := by decide +kernel
theorem noEnglishJapanese : noneIn tEnglish Bip39.japanese = true := by decide +kernel
theorem noEnglishKorean : noneIn tEnglish Bip39.korean = true := by decide +kernel
theorem noEnglishPortuguese : noneIn tEnglish Bip39.portuguese = true := by decide +kernel
theorem noEnglishSpanish : noneIn tEnglish Bip39.spanish = true := by decide +kernel
theorem noEnglishChineseSimplified : noneIn tEnglish Bip39.chineseSimplified = true := by decide +kernel
theorem noEnglishChineseTraditional : noneIn tEnglish Bip39.chineseTraditional = true := by decide +kernel
theorem inFrench : allIn tFrench Bip39.french = true := by decide +kernel
theorem noFrenchItalian : noneIn tFrench Bip39.italian = true := by decide +kernel
theorem noFrenchJapanese : noneIn tFrench Bip39.japanese = true := by decide +kernel
theorem noFrenchKorean : noneIn tFrench Bip39.korean = true := by decide +kernel
theorem noFrenchPortuguese : noneIn tFrench Bip39.portuguese = true := by decide +kernel
theorem noFrenchSpanish : noneIn tFrench Bip39.spanish = true := by decide +kernel
theorem noFrenchChineseSimplified : noneIn tFrench Bip39.chineseSimplified = true := by decide +kernel
theorem noFrenchChineseTraditional : noneIn tFrench Bip39.chineseTraditional = true := by decide +kernel

end Cardano.Mnemonic
