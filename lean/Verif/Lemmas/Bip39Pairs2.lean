import Verif.Lemmas.Bip39Trees
import Verif.Model.Bip39.ChineseSimplified
import Verif.Model.Bip39.ChineseTraditional
import Verif.Model.Bip39.Czech
import Verif.Model.Bip39.English
import Verif.Model.Bip39.French
import Verif.Model.Bip39.Italian
import Verif.Model.Bip39.Japanese
import Verif.Model.Bip39.Korean
import Verif.Model.Bip39.Portuguese
import Verif.Model.Bip39.Spanish

/-! Words common to two dictionaries: what the search trees answer (generated). -/

namespace Cardano.Mnemonic

theorem inItalian : allIn tItalian Bip39.italian = true := by decide +kernel
theorem noItalianJapanese : noneIn tItalian Bip39.japanese = true := by decide +kernel
theorem noItalianKorean : noneIn tItalian Bip39.korean = true := by decide +kernel
theorem noItalianPortuguese : noneIn tItalian Bip39.portuguese = true := by decide +kernel
theorem noItalianSpanish : noneIn tItalian Bip39.spanish = true := by decide +kernel
theorem noItalianChineseSimplified : noneIn tItalian Bip39.chineseSimplified = true := by decide +kernel
theorem noItalianChineseTraditional : noneIn tItalian Bip39.chineseTraditional = true := by decide +kernel
theorem inJapanese : allIn tJapanese Bip39.japanese = true := by decide +kernel
theorem noJapaneseKorean : noneIn tJapanese Bip39.korean = true := by decide +kernel
theorem noJapanesePortuguese : noneIn tJapanese Bip39.portuguese = true := by decide +kernel
theorem noJapaneseSpanish : noneIn tJapanese Bip39.spanish = true := by decide +kernel
theorem noJapaneseChineseSimplified : noneIn tJapanese Bip39.chineseSimplified = true := by decide +kernel
theorem noJapaneseChineseTraditional : noneIn tJapanese Bip39.chineseTraditional = true := by decide +kernel
theorem inKorean : allIn tKorean Bip39.korean = true := by decide +kernel
theorem noKoreanPortuguese : noneIn tKorean Bip39.portuguese = true := by decide +kernel
theorem noKoreanSpanish : noneIn tKorean Bip39.spanish = true := by decide +kernel
theorem noKoreanChineseSimplified : noneIn tKorean Bip39.chineseSimplified = true := by decide +kernel
theorem noKoreanChineseTraditional : noneIn tKorean Bip39.chineseTraditional = true := by decide +kernel
theorem inPortuguese : allIn tPortuguese Bip39.portuguese = true := by decide +kernel
theorem noPortugueseSpanish : noneIn tPortuguese Bip39.spanish = true := by decide +kernel
theorem noPortugueseChineseSimplified : noneIn tPortuguese Bip39.chineseSimplified = true := by decide +kernel
theorem noPortugueseChineseTraditional : noneIn tPortuguese Bip39.chineseTraditional = true := by decide +kernel
theorem inSpanish : allIn tSpanish Bip39.spanish = true := by decide +kernel
theorem noSpanishChineseSimplified : noneIn tSpanish Bip39.chineseSimplified = true := by decide +kernel
theorem noSpanishChineseTraditional : noneIn tSpanish Bip39.chineseTraditional = true := by decide +kernel
theorem inChineseSimplified : allIn tChineseSimplified Bip39.chineseSimplified = true := by decide +kernel
theorem noChineseDiff : noneIn tChineseSimplified (diffZip Bip39.chineseSimplified Bip39.chineseTraditional) = true := by decide +kernel
theorem neEnglishFrench : neZip Bip39.english Bip39.french = true := by decide +kernel

end Cardano.Mnemonic
