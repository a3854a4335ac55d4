/-! Generated from include/cardano/bip39_dictionary.hpp:14567-17666 (the table `korean`).
Each word is written as one number: the byte 1 followed by the bytes of the word. -/

namespace Cardano.Bip39

/-- Entries 0 to 63 of `korean` (include/cardano/bip39_dictionary.hpp:14567-17666): 가격 … 거품 -/
def korean0 : List Nat :=
  [0x01e18480e185a1e18480e185a7e186a8, 0x01e18480e185a1e18481e185b3e186b7, 0x01e18480e185a1e18482e185a1e186ab, 0x01e18480e185a1e18482e185b3e186bc,
   0x01e18480e185a1e18483e185b3e186a8, 0x01e18480e185a1e18485e185b3e1848ee185b5e186b7, 0x01e18480e185a1e18486e185aee186b7, 0x01e18480e185a1e18487e185a1e186bc,
   0x01e18480e185a1e18489e185a1e186bc, 0x01e18480e185a1e18489e185b3e186b7, 0x01e18480e185a1e1848be185aee186abe18483e185a6, 0x01e18480e185a1e1848be185b3e186af,
   0x01e18480e185a1e1848be185b5e18483e185b3, 0x01e18480e185a1e1848be185b5e186b8, 0x01e18480e185a1e1848ce185a1e186bc, 0x01e18480e185a1e1848ce185a5e186bc,
   0x01e18480e185a1e1848ce185a9e186a8, 0x01e18480e185a1e1848ce185aee186a8, 0x01e18480e185a1e186a8e1848be185a9, 0x01e18480e185a1e186a8e1848ce185a1,
   0x01e18480e185a1e186abe18480e185a7e186a8, 0x01e18480e185a1e186abe18487e185ae, 0x01e18480e185a1e186abe18489e185a5e186b8, 0x01e18480e185a1e186abe1848ce185a1e186bc,
   0x01e18480e185a1e186abe1848ce185a5e186b8, 0x01e18480e185a1e186abe18491e185a1e186ab, 0x01e18480e185a1e186afe18483e185b3e186bc, 0x01e18480e185a1e186afe18487e185b5,
   0x01e18480e185a1e186afe18489e185a2e186a8, 0x01e18480e185a1e186afe1848ce185b3e186bc, 0x01e18480e185a1e186b7e18480e185a1e186a8, 0x01e18480e185a1e186b7e18480e185b5,
   0x01e18480e185a1e186b7e18489e185a9, 0x01e18480e185a1e186b7e18489e185aee18489e185a5e186bc, 0x01e18480e185a1e186b7e1848ce185a1, 0x01e18480e185a1e186b7e1848ce185a5e186bc,
   0x01e18480e185a1e186b8e1848ce185a1e18480e185b5, 0x01e18480e185a1e186bce18482e185a1e186b7, 0x01e18480e185a1e186bce18483e185a1e186bc, 0x01e18480e185a1e186bce18483e185a9,
   0x01e18480e185a1e186bce18485e185a7e186a8e18492e185b5, 0x01e18480e185a1e186bce18487e185a7e186ab, 0x01e18480e185a1e186bce18487e185aee186a8, 0x01e18480e185a1e186bce18489e185a1,
   0x01e18480e185a1e186bce18489e185aee18485e185a3e186bc, 0x01e18480e185a1e186bce1848be185a1e1848ce185b5, 0x01e18480e185a1e186bce1848be185afe186abe18483e185a9, 0x01e18480e185a1e186bce1848be185b4,
   0x01e18480e185a1e186bce1848ce185a6, 0x01e18480e185a1e186bce1848ce185a9, 0x01e18480e185a1e18780e1848be185b5, 0x01e18480e185a2e18480e185aee18485e185b5,
   0x01e18480e185a2e18482e185a1e18485e185b5, 0x01e18480e185a2e18487e185a1e186bc, 0x01e18480e185a2e18487e185a7e186af, 0x01e18480e185a2e18489e185a5e186ab,
   0x01e18480e185a2e18489e185a5e186bc, 0x01e18480e185a2e1848be185b5e186ab, 0x01e18480e185a2e186a8e18480e185aae186abe1848ce185a5e186a8, 0x01e18480e185a5e18489e185b5e186af,
   0x01e18480e185a5e1848be185a2e186a8, 0x01e18480e185a5e1848be185aee186af, 0x01e18480e185a5e1848ce185b5e186ba, 0x01e18480e185a5e18491e185aee186b7]

/-- Entries 64 to 127 of `korean` (include/cardano/bip39_dictionary.hpp:14567-17666): 걱정 … 골프 -/
def korean1 : List Nat :=
  [0x01e18480e185a5e186a8e1848ce185a5e186bc, 0x01e18480e185a5e186abe18480e185a1e186bc, 0x01e18480e185a5e186abe18486e185aee186af, 0x01e18480e185a5e186abe18489e185a5e186af,
   0x01e18480e185a5e186abe1848ce185a9, 0x01e18480e185a5e186abe1848ee185aee186a8, 0x01e18480e185a5e186afe1848be185b3e186b7, 0x01e18480e185a5e186b7e18489e185a1,
   0x01e18480e185a5e186b7e18490e185a9, 0x01e18480e185a6e18489e185b5e18491e185a1e186ab, 0x01e18480e185a6e1848be185b5e186b7, 0x01e18480e185a7e1848be185aee186af,
   0x01e18480e185a7e186abe18492e185a2, 0x01e18480e185a7e186afe18480e185aa, 0x01e18480e185a7e186afe18480e185aee186a8, 0x01e18480e185a7e186afe18485e185a9e186ab,
   0x01e18480e185a7e186afe18489e185a5e186a8, 0x01e18480e185a7e186afe18489e185b3e186bc, 0x01e18480e185a7e186afe18489e185b5e186b7, 0x01e18480e185a7e186afe1848ce185a5e186bc,
   0x01e18480e185a7e186afe18492e185a9e186ab, 0x01e18480e185a7e186bce18480e185a8, 0x01e18480e185a7e186bce18480e185a9, 0x01e18480e185a7e186bce18480e185b5,
   0x01e18480e185a7e186bce18485e185a7e186a8, 0x01e18480e185a7e186bce18487e185a9e186a8e18480e185aee186bc, 0x01e18480e185a7e186bce18487e185b5, 0x01e18480e185a7e186bce18489e185a1e186bce18483e185a9,
   0x01e18480e185a7e186bce1848be185a7e186bc, 0x01e18480e185a7e186bce1848be185ae, 0x01e18480e185a7e186bce1848ce185a2e186bc, 0x01e18480e185a7e186bce1848ce185a6,
   0x01e18480e185a7e186bce1848ce185ae, 0x01e18480e185a7e186bce1848ee185a1e186af, 0x01e18480e185a7e186bce1848ee185b5, 0x01e18480e185a7e186bce18492e185a3e186bc,
   0x01e18480e185a7e186bce18492e185a5e186b7, 0x01e18480e185a8e18480e185a9e186a8, 0x01e18480e185a8e18483e185a1e186ab, 0x01e18480e185a8e18485e185a1e186ab,
   0x01e18480e185a8e18489e185a1e186ab, 0x01e18480e185a8e18489e185a9e186a8, 0x01e18480e185a8e1848be185a3e186a8, 0x01e18480e185a8e1848ce185a5e186af,
   0x01e18480e185a8e1848ee185b3e186bc, 0x01e18480e185a8e18492e185ace186a8, 0x01e18480e185a9e18480e185a2e186a8, 0x01e18480e185a9e18480e185aee18485e185a7,
   0x01e18480e185a9e18480e185aee186bc, 0x01e18480e185a9e18480e185b3e186b8, 0x01e18480e185a9e18483e185b3e186bce18492e185a1e186a8e18489e185a2e186bc, 0x01e18480e185a9e18486e185aee18489e185b5e186ab,
   0x01e18480e185a9e18486e185b5e186ab, 0x01e18480e185a9e1848be185a3e186bce1848be185b5, 0x01e18480e185a9e1848ce185a1e186bc, 0x01e18480e185a9e1848ce185a5e186ab,
   0x01e18480e185a9e1848ce185b5e186b8, 0x01e18480e185a9e1848ee185aee186bae18480e185a1e18485e185ae, 0x01e18480e185a9e18490e185a9e186bc, 0x01e18480e185a9e18492e185a3e186bc,
   0x01e18480e185a9e186a8e18489e185b5e186a8, 0x01e18480e185a9e186afe18486e185a9e186a8, 0x01e18480e185a9e186afe1848de185a1e18480e185b5, 0x01e18480e185a9e186afe18491e185b3]

/-- Entries 128 to 191 of `korean` (include/cardano/bip39_dictionary.hpp:14567-17666): 공간 … 구입 -/
def korean2 : List Nat :=
  [0x01e18480e185a9e186bce18480e185a1e186ab, 0x01e18480e185a9e186bce18480e185a2, 0x01e18480e185a9e186bce18480e185a7e186a8, 0x01e18480e185a9e186bce18480e185aee186ab,
   0x01e18480e185a9e186bce18480e185b3e186b8, 0x01e18480e185a9e186bce18480e185b5, 0x01e18480e185a9e186bce18483e185a9e186bc, 0x01e18480e185a9e186bce18486e185aee1848be185afe186ab,
   0x01e18480e185a9e186bce18487e185ae, 0x01e18480e185a9e186bce18489e185a1, 0x01e18480e185a9e186bce18489e185b5e186a8, 0x01e18480e185a9e186bce1848be185a5e186b8,
   0x01e18480e185a9e186bce1848be185a7e186ab, 0x01e18480e185a9e186bce1848be185afe186ab, 0x01e18480e185a9e186bce1848ce185a1e186bc, 0x01e18480e185a9e186bce1848de185a1,
   0x01e18480e185a9e186bce1848ee185a2e186a8, 0x01e18480e185a9e186bce18490e185a9e186bc, 0x01e18480e185a9e186bce18491e185a9, 0x01e18480e185a9e186bce18492e185a1e186bc,
   0x01e18480e185a9e186bce18492e185b2e1848be185b5e186af, 0x01e18480e185aae18486e185a9e186a8, 0x01e18480e185aae1848be185b5e186af, 0x01e18480e185aae1848ce185a1e186bc,
   0x01e18480e185aae1848ce185a5e186bc, 0x01e18480e185aae18492e185a1e186a8, 0x01e18480e185aae186abe18480e185a2e186a8, 0x01e18480e185aae186abe18480e185a8,
   0x01e18480e185aae186abe18480e185aae186bc, 0x01e18480e185aae186abe18482e185a7e186b7, 0x01e18480e185aae186abe18485e185a1e186b7, 0x01e18480e185aae186abe18485e185a7e186ab,
   0x01e18480e185aae186abe18485e185b5, 0x01e18480e185aae186abe18489e185b3e186b8, 0x01e18480e185aae186abe18489e185b5e186b7, 0x01e18480e185aae186abe1848ce185a5e186b7,
   0x01e18480e185aae186abe1848ee185a1e186af, 0x01e18480e185aae186bce18480e185a7e186bc, 0x01e18480e185aae186bce18480e185a9, 0x01e18480e185aae186bce1848ce185a1e186bc,
   0x01e18480e185aae186bce1848ce185ae, 0x01e18480e185ace18485e185a9e1848be185aee186b7, 0x01e18480e185ace186bce1848ce185a1e186bce18492e185b5, 0x01e18480e185ade18480e185aae18489e185a5,
   0x01e18480e185ade18486e185aee186ab, 0x01e18480e185ade18487e185a9e186a8, 0x01e18480e185ade18489e185b5e186af, 0x01e18480e185ade1848be185a3e186bc,
   0x01e18480e185ade1848be185b2e186a8, 0x01e18480e185ade1848ce185a1e186bc, 0x01e18480e185ade1848ce185b5e186a8, 0x01e18480e185ade18490e185a9e186bc,
   0x01e18480e185ade18492e185aae186ab, 0x01e18480e185ade18492e185aee186ab, 0x01e18480e185aee18480e185a7e186bc, 0x01e18480e185aee18485e185b3e186b7,
   0x01e18480e185aee18486e185a5e186bc, 0x01e18480e185aee18487e185a7e186af, 0x01e18480e185aee18487e185aee186ab, 0x01e18480e185aee18489e185a5e186a8,
   0x01e18480e185aee18489e185a5e186bc, 0x01e18480e185aee18489e185a9e186a8, 0x01e18480e185aee1848be185a7e186a8, 0x01e18480e185aee1848be185b5e186b8]

/-- Entries 192 to 255 of `korean` (include/cardano/bip39_dictionary.hpp:14567-17666): 구청 … 기록 -/
def korean3 : List Nat :=
  [0x01e18480e185aee1848ee185a5e186bc, 0x01e18480e185aee1848ee185a6e1848ce185a5e186a8, 0x01e18480e185aee186a8e18480e185a1, 0x01e18480e185aee186a8e18480e185b5,
   0x01e18480e185aee186a8e18482e185a2, 0x01e18480e185aee186a8e18485e185b5e186b8, 0x01e18480e185aee186a8e18486e185aee186af, 0x01e18480e185aee186a8e18486e185b5e186ab,
   0x01e18480e185aee186a8e18489e185ae, 0x01e18480e185aee186a8e1848be185a5, 0x01e18480e185aee186a8e1848be185aae186bc, 0x01e18480e185aee186a8e1848ce185a5e186a8,
   0x01e18480e185aee186a8e1848ce185a6, 0x01e18480e185aee186a8e18492e185ac, 0x01e18480e185aee186abe18483e185a2, 0x01e18480e185aee186abe18489e185a1,
   0x01e18480e185aee186abe1848be185b5e186ab, 0x01e18480e185aee186bce18480e185b3e186a8e1848ce185a5e186a8, 0x01e18480e185afe186abe18485e185b5, 0x01e18480e185afe186abe1848be185b1,
   0x01e18480e185afe186abe18490e185ae, 0x01e18480e185b1e18480e185aee186a8, 0x01e18480e185b1e18489e185b5e186ab, 0x01e18480e185b2e1848ce185a5e186bc,
   0x01e18480e185b2e1848ee185b5e186a8, 0x01e18480e185b2e186abe18492e185a7e186bc, 0x01e18480e185b3e18482e185a1e186af, 0x01e18480e185b3e18482e185a3e186bc,
   0x01e18480e185b3e18482e185b3e186af, 0x01e18480e185b3e18485e185a5e18482e185a1, 0x01e18480e185b3e18485e185aee186b8, 0x01e18480e185b3e18485e185b3e186ba,
   0x01e18480e185b3e18485e185b5e186b7, 0x01e18480e185b3e1848ce185a6e18489e185a5e1848be185a3, 0x01e18480e185b3e18490e185a9e18485e185a9e186a8, 0x01e18480e185b3e186a8e18487e185a9e186a8,
   0x01e18480e185b3e186a8e18492e185b5, 0x01e18480e185b3e186abe18480e185a5, 0x01e18480e185b3e186abe18480e185ad, 0x01e18480e185b3e186abe18485e185a2,
   0x01e18480e185b3e186abe18485e185a9, 0x01e18480e185b3e186abe18486e185ae, 0x01e18480e185b3e186abe18487e185a9e186ab, 0x01e18480e185b3e186abe1848be185afe186ab,
   0x01e18480e185b3e186abe1848be185b2e186a8, 0x01e18480e185b3e186abe1848ee185a5, 0x01e18480e185b3e186afe1848ae185b5, 0x01e18480e185b3e186afe1848ce185a1,
   0x01e18480e185b3e186b7e18480e185a1e186bce18489e185a1e186ab, 0x01e18480e185b3e186b7e18480e185a9, 0x01e18480e185b3e186b7e18482e185a7e186ab, 0x01e18480e185b3e186b7e18486e185a6e18483e185a1e186af,
   0x01e18480e185b3e186b7e1848be185a2e186a8, 0x01e18480e185b3e186b7e1848be185a7e186ab, 0x01e18480e185b3e186b7e1848be185ade1848be185b5e186af, 0x01e18480e185b3e186b7e1848ce185b5,
   0x01e18480e185b3e186bce1848ce185a5e186bce1848ce185a5e186a8, 0x01e18480e185b5e18480e185a1e186ab, 0x01e18480e185b5e18480e185aae186ab, 0x01e18480e185b5e18482e185a7e186b7,
   0x01e18480e185b5e18482e185b3e186bc, 0x01e18480e185b5e18483e185a9e186a8e18480e185ad, 0x01e18480e185b5e18483e185aee186bc, 0x01e18480e185b5e18485e185a9e186a8]

/-- Entries 256 to 319 of `korean` (include/cardano/bip39_dictionary.hpp:14567-17666): 기름 … 노란색 -/
def korean4 : List Nat :=
  [0x01e18480e185b5e18485e185b3e186b7, 0x01e18480e185b5e18487e185a5e186b8, 0x01e18480e185b5e18487e185a9e186ab, 0x01e18480e185b5e18487e185aee186ab,
   0x01e18480e185b5e18488e185b3e186b7, 0x01e18480e185b5e18489e185aee186a8e18489e185a1, 0x01e18480e185b5e18489e185aee186af, 0x01e18480e185b5e1848be185a5e186a8,
   0x01e18480e185b5e1848be185a5e186b8, 0x01e18480e185b5e1848be185a9e186ab, 0x01e18480e185b5e1848be185aee186ab, 0x01e18480e185b5e1848be185afe186ab,
   0x01e18480e185b5e1848ce185a5e186a8, 0x01e18480e185b5e1848ce185aee186ab, 0x01e18480e185b5e1848ee185b5e186b7, 0x01e18480e185b5e18492e185a9e186ab,
   0x01e18480e185b5e18492e185ace186a8, 0x01e18480e185b5e186abe18480e185b3e186b8, 0x01e18480e185b5e186abe1848ce185a1e186bc, 0x01e18480e185b5e186afe1848be185b5,
   0x01e18480e185b5e186b7e18487e185a1e186b8, 0x01e18480e185b5e186b7e1848ee185b5, 0x01e18480e185b5e186b7e18491e185a9e18480e185a9e186bce18492e185a1e186bc, 0x01e18481e185a1e186a8e18483e185aee18480e185b5,
   0x01e18481e185a1e186b7e18488e185a1e186a8, 0x01e18481e185a2e18483e185a1e186afe1848be185b3e186b7, 0x01e18481e185a2e18489e185a9e18480e185b3e186b7, 0x01e18481e185a5e186b8e1848ce185b5e186af,
   0x01e18481e185a9e186a8e18483e185a2e18480e185b5, 0x01e18481e185a9e186bee1848be185b5e18781, 0x01e18482e185a1e18483e185b3e186afe1848be185b5, 0x01e18482e185a1e18485e185a1e186abe18492e185b5,
   0x01e18482e185a1e18486e185a5e1848ce185b5, 0x01e18482e185a1e18486e185aee186af, 0x01e18482e185a1e1848ee185b5e186b7e18487e185a1e186ab, 0x01e18482e185a1e18492e185b3e186af,
   0x01e18482e185a1e186a8e1848be185a7e186b8, 0x01e18482e185a1e186abe18487e185a1e186bc, 0x01e18482e185a1e186afe18480e185a2, 0x01e18482e185a1e186afe1848ae185b5,
   0x01e18482e185a1e186afe1848de185a1, 0x01e18482e185a1e186b7e18482e185a7, 0x01e18482e185a1e186b7e18483e185a2e18486e185aee186ab, 0x01e18482e185a1e186b7e18486e185a2,
   0x01e18482e185a1e186b7e18489e185a1e186ab, 0x01e18482e185a1e186b7e1848ce185a1, 0x01e18482e185a1e186b7e18491e185a7e186ab, 0x01e18482e185a1e186b7e18492e185a1e186a8e18489e185a2e186bc,
   0x01e18482e185a1e186bce18487e185b5, 0x01e18482e185a1e18780e18486e185a1e186af, 0x01e18482e185a2e18482e185a7e186ab, 0x01e18482e185a2e1848be185ade186bc,
   0x01e18482e185a2e1848be185b5e186af, 0x01e18482e185a2e186b7e18487e185b5, 0x01e18482e185a2e186b7e18489e185a2, 0x01e18482e185a2e186bae18486e185aee186af,
   0x01e18482e185a2e186bce18483e185a9e186bc, 0x01e18482e185a2e186bce18486e185a7e186ab, 0x01e18482e185a2e186bce18487e185a1e186bc, 0x01e18482e185a2e186bce1848ce185a1e186bce18480e185a9,
   0x01e18482e185a6e186a8e18490e185a1e1848be185b5, 0x01e18482e185a6e186bae1848de185a2, 0x01e18482e185a9e18483e185a9e186bc, 0x01e18482e185a9e18485e185a1e186abe18489e185a2e186a8]

/-- Entries 320 to 383 of `korean` (include/cardano/bip39_dictionary.hpp:14567-17666): 노력 … 대량 -/
def korean5 : List Nat :=
  [0x01e18482e185a9e18485e185a7e186a8, 0x01e18482e185a9e1848be185b5e186ab, 0x01e18482e185a9e186a8e1848be185b3e186b7, 0x01e18482e185a9e186a8e1848ee185a1,
   0x01e18482e185a9e186a8e18492e185aa, 0x01e18482e185a9e186abe18485e185b5, 0x01e18482e185a9e186abe18486e185aee186ab, 0x01e18482e185a9e186abe1848ce185a2e186bc,
   0x01e18482e185a9e186afe1848be185b5, 0x01e18482e185a9e186bce18480e185ae, 0x01e18482e185a9e186bce18483e185a1e186b7, 0x01e18482e185a9e186bce18486e185b5e186ab,
   0x01e18482e185a9e186bce18487e185ae, 0x01e18482e185a9e186bce1848be185a5e186b8, 0x01e18482e185a9e186bce1848ce185a1e186bc, 0x01e18482e185a9e186bce1848ee185a9e186ab,
   0x01e18482e185a9e18781e1848be185b5, 0x01e18482e185aee186abe18483e185a9e186bce1848ce185a1, 0x01e18482e185aee186abe18486e185aee186af, 0x01e18482e185aee186abe1848ae185a5e186b8,
   0x01e18482e185b2e1848be185ade186a8, 0x01e18482e185b3e18481e185b5e186b7, 0x01e18482e185b3e186a8e18483e185a2, 0x01e18482e185b3e186bce18483e185a9e186bce1848ce185a5e186a8,
   0x01e18482e185b3e186bce18485e185a7e186a8, 0x01e18483e185a1e18487e185a1e186bc, 0x01e18483e185a1e1848be185a3e186bce18489e185a5e186bc, 0x01e18483e185a1e1848be185b3e186b7,
   0x01e18483e185a1e1848be185b5e1848be185a5e18490e185b3, 0x01e18483e185a1e18492e185a2e186bc, 0x01e18483e185a1e186abe18480e185a8, 0x01e18483e185a1e186abe18480e185a9e186af,
   0x01e18483e185a1e186abe18483e185a9e186a8, 0x01e18483e185a1e186abe18486e185a1e186ba, 0x01e18483e185a1e186abe18489e185aee186ab, 0x01e18483e185a1e186abe1848be185a5,
   0x01e18483e185a1e186abe1848be185b1, 0x01e18483e185a1e186abe1848ce185a5e186b7, 0x01e18483e185a1e186abe1848ee185a6, 0x01e18483e185a1e186abe1848ee185ae,
   0x01e18483e185a1e186abe18491e185a7e186ab, 0x01e18483e185a1e186abe18491e185aee186bc, 0x01e18483e185a1e186afe18480e185a3e186af, 0x01e18483e185a1e186afe18485e185a5,
   0x01e18483e185a1e186afe18485e185a7e186a8, 0x01e18483e185a1e186afe18485e185b5, 0x01e18483e185a1e186b0e18480e185a9e18480e185b5, 0x01e18483e185a1e186b7e18483e185a1e186bc,
   0x01e18483e185a1e186b7e18487e185a2, 0x01e18483e185a1e186b7e1848be185ad, 0x01e18483e185a1e186b7e1848be185b5e186b7, 0x01e18483e185a1e186b8e18487e185a7e186ab,
   0x01e18483e185a1e186b8e1848ce185a1e186bc, 0x01e18483e185a1e186bce18480e185b3e186ab, 0x01e18483e185a1e186bce18487e185aee186abe18480e185a1e186ab, 0x01e18483e185a1e186bce1848be185a7e186abe18492e185b5,
   0x01e18483e185a1e186bce1848ce185a1e186bc, 0x01e18483e185a2e18480e185b2e18486e185a9, 0x01e18483e185a2e18482e185a1e186bd, 0x01e18483e185a2e18483e185a1e186abe18492e185b5,
   0x01e18483e185a2e18483e185a1e186b8, 0x01e18483e185a2e18483e185a9e18489e185b5, 0x01e18483e185a2e18485e185a3e186a8, 0x01e18483e185a2e18485e185a3e186bc]

/-- Entries 384 to 447 of `korean` (include/cardano/bip39_dictionary.hpp:14567-17666): 대륙 … 만세 -/
def korean6 : List Nat :=
  [0x01e18483e185a2e18485e185b2e186a8, 0x01e18483e185a2e18486e185aee186ab, 0x01e18483e185a2e18487e185aee18487e185aee186ab, 0x01e18483e185a2e18489e185b5e186ab,
   0x01e18483e185a2e1848be185b3e186bc, 0x01e18483e185a2e1848ce185a1e186bc, 0x01e18483e185a2e1848ce185a5e186ab, 0x01e18483e185a2e1848ce185a5e186b8,
   0x01e18483e185a2e1848ce185aee186bc, 0x01e18483e185a2e1848ee185a2e186a8, 0x01e18483e185a2e1848ee185aee186af, 0x01e18483e185a2e1848ee185aee186bc,
   0x01e18483e185a2e18490e185a9e186bce18485e185a7e186bc, 0x01e18483e185a2e18492e185a1e186a8, 0x01e18483e185a2e18492e185a1e186abe18486e185b5e186abe18480e185aee186a8, 0x01e18483e185a2e18492e185a1e186b8e18489e185b5e186af,
   0x01e18483e185a2e18492e185a7e186bc, 0x01e18483e185a5e186bce1848be185a5e18485e185b5, 0x01e18483e185a6e1848be185b5e18490e185b3, 0x01e18483e185a9e18483e185a2e1848ee185a6,
   0x01e18483e185a9e18483e185a5e186a8, 0x01e18483e185a9e18483e185aee186a8, 0x01e18483e185a9e18486e185a1e186bc, 0x01e18483e185a9e18489e185a5e18480e185aae186ab,
   0x01e18483e185a9e18489e185b5e186b7, 0x01e18483e185a9e1848be185aee186b7, 0x01e18483e185a9e1848be185b5e186b8, 0x01e18483e185a9e1848ce185a1e18480e185b5,
   0x01e18483e185a9e1848ce185a5e18492e185b5, 0x01e18483e185a9e1848ce185a5e186ab, 0x01e18483e185a9e1848ce185aee186bc, 0x01e18483e185a9e1848ee185a1e186a8,
   0x01e18483e185a9e186a8e18480e185a1e186b7, 0x01e18483e185a9e186a8e18485e185b5e186b8, 0x01e18483e185a9e186a8e18489e185a5, 0x01e18483e185a9e186a8e1848be185b5e186af,
   0x01e18483e185a9e186a8e1848ee185a1e186bce1848ce185a5e186a8, 0x01e18483e185a9e186bce18492e185aae1848ee185a2e186a8, 0x01e18483e185b1e186bae18486e185a9e18489e185b3e186b8, 0x01e18483e185b1e186bae18489e185a1e186ab,
   0x01e18484e185a1e186afe1848be185a1e1848be185b5, 0x01e18486e185a1e18482e185aee18485e185a1, 0x01e18486e185a1e18482e185b3e186af, 0x01e18486e185a1e18483e185a1e186bc,
   0x01e18486e185a1e18485e185a1e18490e185a9e186ab, 0x01e18486e185a1e18485e185a7e186ab, 0x01e18486e185a1e18486e185aee18485e185b5, 0x01e18486e185a1e18489e185a1e1848ce185b5,
   0x01e18486e185a1e1848be185a3e186a8, 0x01e18486e185a1e1848be185ade18482e185a6e1848ce185b3, 0x01e18486e185a1e1848be185b3e186af, 0x01e18486e185a1e1848be185b3e186b7,
   0x01e18486e185a1e1848be185b5e1848fe185b3, 0x01e18486e185a1e1848ce185aee186bc, 0x01e18486e185a1e1848ce185b5e18486e185a1e186a8, 0x01e18486e185a1e1848ee185a1e186abe18480e185a1e1848ce185b5,
   0x01e18486e185a1e1848ee185a1e186af, 0x01e18486e185a1e18492e185b3e186ab, 0x01e18486e185a1e186a8e18480e185a5e186afe18485e185b5, 0x01e18486e185a1e186a8e18482e185a2,
   0x01e18486e185a1e186a8e18489e185a1e186bc, 0x01e18486e185a1e186abe18482e185a1e186b7, 0x01e18486e185a1e186abe18483e185ae, 0x01e18486e185a1e186abe18489e185a6]

/-- Entries 448 to 511 of `korean` (include/cardano/bip39_dictionary.hpp:14567-17666): 만약 … 무더위 -/
def korean7 : List Nat :=
  [0x01e18486e185a1e186abe1848be185a3e186a8, 0x01e18486e185a1e186abe1848be185b5e186af, 0x01e18486e185a1e186abe1848ce185a5e186b7, 0x01e18486e185a1e186abe1848ce185a9e186a8,
   0x01e18486e185a1e186abe18492e185aa, 0x01e18486e185a1e186ade1848be185b5, 0x01e18486e185a1e186afe18480e185b5, 0x01e18486e185a1e186afe1848ae185b3e186b7,
   0x01e18486e185a1e186afe18490e185ae, 0x01e18486e185a1e186b7e18483e185a2e18485e185a9, 0x01e18486e185a1e186bce1848be185afe186abe18480e185a7e186bc, 0x01e18486e185a2e18482e185a7e186ab,
   0x01e18486e185a2e18483e185a1e186af, 0x01e18486e185a2e18485e185a7e186a8, 0x01e18486e185a2e18487e185a5e186ab, 0x01e18486e185a2e18489e185b3e1848fe185a5e186b7,
   0x01e18486e185a2e1848be185b5e186af, 0x01e18486e185a2e1848ce185a1e186bc, 0x01e18486e185a2e186a8e1848ce185ae, 0x01e18486e185a5e186a8e1848be185b5,
   0x01e18486e185a5e186abe1848ce185a5, 0x01e18486e185a5e186abe1848ce185b5, 0x01e18486e185a5e186afe18485e185b5, 0x01e18486e185a6e1848be185b5e186af,
   0x01e18486e185a7e18482e185b3e18485e185b5, 0x01e18486e185a7e1848ee185b5e186af, 0x01e18486e185a7e186abe18483e185a1e186b7, 0x01e18486e185a7e186afe1848ee185b5,
   0x01e18486e185a7e186bce18483e185a1e186ab, 0x01e18486e185a7e186bce18485e185a7e186bc, 0x01e18486e185a7e186bce1848be185a8, 0x01e18486e185a7e186bce1848be185b4,
   0x01e18486e185a7e186bce1848ce185a5e186af, 0x01e18486e185a7e186bce1848ee185b5e186bc, 0x01e18486e185a7e186bce18492e185a1e186b7, 0x01e18486e185a9e18480e185b3e186b7,
   0x01e18486e185a9e18482e185b5e18490e185a5, 0x01e18486e185a9e18483e185a6e186af, 0x01e18486e185a9e18483e185b3e186ab, 0x01e18486e185a9e18487e185a5e186b7,
   0x01e18486e185a9e18489e185b3e186b8, 0x01e18486e185a9e1848be185a3e186bc, 0x01e18486e185a9e1848be185b5e186b7, 0x01e18486e185a9e1848ce185a9e18485e185b5,
   0x01e18486e185a9e1848ce185b5e186b8, 0x01e18486e185a9e18490e185aee186bce1848be185b5, 0x01e18486e185a9e186a8e18480e185a5e186afe1848be185b5, 0x01e18486e185a9e186a8e18485e185a9e186a8,
   0x01e18486e185a9e186a8e18489e185a1, 0x01e18486e185a9e186a8e18489e185a9e18485e185b5, 0x01e18486e185a9e186a8e18489e185aee186b7, 0x01e18486e185a9e186a8e1848ce185a5e186a8,
   0x01e18486e185a9e186a8e18491e185ad, 0x01e18486e185a9e186afe18485e185a2, 0x01e18486e185a9e186b7e18486e185a2, 0x01e18486e185a9e186b7e18486e185aee18480e185a6,
   0x01e18486e185a9e186b7e18489e185a1e186af, 0x01e18486e185a9e186b7e18489e185a9e186a8, 0x01e18486e185a9e186b7e1848ce185b5e186ba, 0x01e18486e185a9e186b7e18490e185a9e186bc,
   0x01e18486e185a9e186b8e18489e185b5, 0x01e18486e185aee18480e185aae186abe18489e185b5e186b7, 0x01e18486e185aee18480e185aee186bce18492e185aa, 0x01e18486e185aee18483e185a5e1848be185b1]

/-- Entries 512 to 575 of `korean` (include/cardano/bip39_dictionary.hpp:14567-17666): 무덤 … 반찬 -/
def korean8 : List Nat :=
  [0x01e18486e185aee18483e185a5e186b7, 0x01e18486e185aee18485e185b3e18781, 0x01e18486e185aee18489e185b3e186ab, 0x01e18486e185aee1848be185a5e186ba,
   0x01e18486e185aee1848be185a7e186a8, 0x01e18486e185aee1848be185ade186bc, 0x01e18486e185aee1848ce185a9e18480e185a5e186ab, 0x01e18486e185aee1848ce185b5e18480e185a2,
   0x01e18486e185aee1848ee185a5e186a8, 0x01e18486e185aee186abe18480e185ae, 0x01e18486e185aee186abe18483e185b3e186a8, 0x01e18486e185aee186abe18487e185a5e186b8,
   0x01e18486e185aee186abe18489e185a5, 0x01e18486e185aee186abe1848ce185a6, 0x01e18486e185aee186abe18492e185a1e186a8, 0x01e18486e185aee186abe18492e185aa,
   0x01e18486e185aee186afe18480e185a1, 0x01e18486e185aee186afe18480e185a5e186ab, 0x01e18486e185aee186afe18480e185a7e186af, 0x01e18486e185aee186afe18480e185a9e18480e185b5,
   0x01e18486e185aee186afe18485e185a9e186ab, 0x01e18486e185aee186afe18485e185b5e18492e185a1e186a8, 0x01e18486e185aee186afe1848be185b3e186b7, 0x01e18486e185aee186afe1848ce185b5e186af,
   0x01e18486e185aee186afe1848ee185a6, 0x01e18486e185b5e18480e185aee186a8, 0x01e18486e185b5e18483e185b5e1848be185a5, 0x01e18486e185b5e18489e185a1e1848be185b5e186af,
   0x01e18486e185b5e18489e185aee186af, 0x01e18486e185b5e1848be185a7e186a8, 0x01e18486e185b5e1848be185ade186bce18489e185b5e186af, 0x01e18486e185b5e1848be185aee186b7,
   0x01e18486e185b5e1848be185b5e186ab, 0x01e18486e185b5e18490e185b5e186bc, 0x01e18486e185b5e18492e185a9e186ab, 0x01e18486e185b5e186abe18480e185a1e186ab,
   0x01e18486e185b5e186abe1848ce185a9e186a8, 0x01e18486e185b5e186abe1848ce185ae, 0x01e18486e185b5e186aee1848be185b3e186b7, 0x01e18486e185b5e186afe18480e185a1e18485e185ae,
   0x01e18486e185b5e186afe18485e185b5e18486e185b5e18490e185a5, 0x01e18486e185b5e18780e18487e185a1e18483e185a1e186a8, 0x01e18487e185a1e18480e185a1e1848ce185b5, 0x01e18487e185a1e18480e185aee18482e185b5,
   0x01e18487e185a1e18482e185a1e18482e185a1, 0x01e18487e185a1e18482e185b3e186af, 0x01e18487e185a1e18483e185a1e186a8, 0x01e18487e185a1e18483e185a1e186bae18480e185a1,
   0x01e18487e185a1e18485e185a1e186b7, 0x01e18487e185a1e1848be185b5e18485e185a5e18489e185b3, 0x01e18487e185a1e18490e185a1e186bc, 0x01e18487e185a1e186a8e18486e185aee186afe18480e185aae186ab,
   0x01e18487e185a1e186a8e18489e185a1, 0x01e18487e185a1e186a8e18489e185ae, 0x01e18487e185a1e186abe18483e185a2, 0x01e18487e185a1e186abe18483e185b3e18489e185b5,
   0x01e18487e185a1e186abe18486e185a1e186af, 0x01e18487e185a1e186abe18487e185a1e186af, 0x01e18487e185a1e186abe18489e185a5e186bc, 0x01e18487e185a1e186abe1848be185b3e186bc,
   0x01e18487e185a1e186abe1848ce185a1e186bc, 0x01e18487e185a1e186abe1848ce185aee186a8, 0x01e18487e185a1e186abe1848ce185b5, 0x01e18487e185a1e186abe1848ee185a1e186ab]

/-- Entries 576 to 639 of `korean` (include/cardano/bip39_dictionary.hpp:14567-17666): 받침 … 변명 -/
def korean9 : List Nat :=
  [0x01e18487e185a1e186aee1848ee185b5e186b7, 0x01e18487e185a1e186afe18480e185a1e18485e185a1e186a8, 0x01e18487e185a1e186afe18480e185a5e186afe1848be185b3e186b7, 0x01e18487e185a1e186afe18480e185a7e186ab,
   0x01e18487e185a1e186afe18483e185a1e186af, 0x01e18487e185a1e186afe18485e185a6, 0x01e18487e185a1e186afe18486e185a9e186a8, 0x01e18487e185a1e186afe18487e185a1e18483e185a1e186a8,
   0x01e18487e185a1e186afe18489e185a2e186bc, 0x01e18487e185a1e186afe1848be185b3e186b7, 0x01e18487e185a1e186afe1848ce185a1e18480e185aee186a8, 0x01e18487e185a1e186afe1848ce185a5e186ab,
   0x01e18487e185a1e186afe18490e185a9e186b8, 0x01e18487e185a1e186afe18491e185ad, 0x01e18487e185a1e186b7e18492e185a1e18482e185b3e186af, 0x01e18487e185a1e186b8e18480e185b3e18485e185b3e186ba,
   0x01e18487e185a1e186b8e18486e185a1e186ba, 0x01e18487e185a1e186b8e18489e185a1e186bc, 0x01e18487e185a1e186b8e18489e185a9e18780, 0x01e18487e185a1e186bce18480e185b3e186b7,
   0x01e18487e185a1e186bce18486e185a7e186ab, 0x01e18487e185a1e186bce18486e185aee186ab, 0x01e18487e185a1e186bce18487e185a1e18483e185a1e186a8, 0x01e18487e185a1e186bce18487e185a5e186b8,
   0x01e18487e185a1e186bce18489e185a9e186bc, 0x01e18487e185a1e186bce18489e185b5e186a8, 0x01e18487e185a1e186bce1848be185a1e186ab, 0x01e18487e185a1e186bce1848be185aee186af,
   0x01e18487e185a1e186bce1848ce185b5, 0x01e18487e185a1e186bce18492e185a1e186a8, 0x01e18487e185a1e186bce18492e185a2, 0x01e18487e185a1e186bce18492e185a3e186bc,
   0x01e18487e185a2e18480e185a7e186bc, 0x01e18487e185a2e18481e185a9e186b8, 0x01e18487e185a2e18483e185a1e186af, 0x01e18487e185a2e18483e185b3e18486e185b5e186abe18490e185a5e186ab,
   0x01e18487e185a2e186a8e18483e185aee18489e185a1e186ab, 0x01e18487e185a2e186a8e18489e185a2e186a8, 0x01e18487e185a2e186a8e18489e185a5e186bc, 0x01e18487e185a2e186a8e1848be185b5e186ab,
   0x01e18487e185a2e186a8e1848ce185a6, 0x01e18487e185a2e186a8e18492e185aae1848ce185a5e186b7, 0x01e18487e185a5e18485e185b3e186ba, 0x01e18487e185a5e18489e185a5e186ba,
   0x01e18487e185a5e18490e185b3e186ab, 0x01e18487e185a5e186abe18480e185a2, 0x01e18487e185a5e186abe1848be185a7e186a8, 0x01e18487e185a5e186abe1848ce185b5,
   0x01e18487e185a5e186abe18492e185a9, 0x01e18487e185a5e186afe18480e185b3e186b7, 0x01e18487e185a5e186afe18485e185a6, 0x01e18487e185a5e186afe1848ae185a5,
   0x01e18487e185a5e186b7e1848be185b1, 0x01e18487e185a5e186b7e1848be185b5e186ab, 0x01e18487e185a5e186b7e1848ce185ac, 0x01e18487e185a5e186b8e18485e185b2e186af,
   0x01e18487e185a5e186b8e1848be185afe186ab, 0x01e18487e185a5e186b8e1848ce185a5e186a8, 0x01e18487e185a5e186b8e1848ee185b5e186a8, 0x01e18487e185a6e1848be185b5e1848ce185b5e186bc,
   0x01e18487e185a6e186afe18490e185b3, 0x01e18487e185a7e186abe18480e185a7e186bc, 0x01e18487e185a7e186abe18483e185a9e186bc, 0x01e18487e185a7e186abe18486e185a7e186bc]

/-- Entries 640 to 703 of `korean` (include/cardano/bip39_dictionary.hpp:14567-17666): 변신 … 분명 -/
def korean10 : List Nat :=
  [0x01e18487e185a7e186abe18489e185b5e186ab, 0x01e18487e185a7e186abe18492e185a9e18489e185a1, 0x01e18487e185a7e186abe18492e185aa, 0x01e18487e185a7e186afe18483e185a9,
   0x01e18487e185a7e186afe18486e185a7e186bc, 0x01e18487e185a7e186afe1848be185b5e186af, 0x01e18487e185a7e186bce18489e185b5e186af, 0x01e18487e185a7e186bce1848be185a1e18485e185b5,
   0x01e18487e185a7e186bce1848be185afe186ab, 0x01e18487e185a9e18480e185aae186ab, 0x01e18487e185a9e18482e185a5e18489e185b3, 0x01e18487e185a9e18485e185a1e18489e185a2e186a8,
   0x01e18487e185a9e18485e185a1e186b7, 0x01e18487e185a9e18485e185b3e186b7, 0x01e18487e185a9e18489e185a1e186bc, 0x01e18487e185a9e1848be185a1e186ab,
   0x01e18487e185a9e1848ce185a1e18480e185b5, 0x01e18487e185a9e1848ce185a1e186bc, 0x01e18487e185a9e1848ce185a5e186ab, 0x01e18487e185a9e1848ce185a9e186ab,
   0x01e18487e185a9e18490e185a9e186bc, 0x01e18487e185a9e18491e185a7e186abe1848ce185a5e186a8, 0x01e18487e185a9e18492e185a5e186b7, 0x01e18487e185a9e186a8e18483e185a9,
   0x01e18487e185a9e186a8e18489e185a1, 0x01e18487e185a9e186a8e18489e185aee186bce1848be185a1, 0x01e18487e185a9e186a8e18489e185b3e186b8, 0x01e18487e185a9e186a9e1848be185b3e186b7,
   0x01e18487e185a9e186abe18480e185a7e186a8e1848ce185a5e186a8, 0x01e18487e185a9e186abe18485e185a2, 0x01e18487e185a9e186abe18487e185ae, 0x01e18487e185a9e186abe18489e185a1,
   0x01e18487e185a9e186abe18489e185a5e186bc, 0x01e18487e185a9e186abe1848be185b5e186ab, 0x01e18487e185a9e186abe1848ce185b5e186af, 0x01e18487e185a9e186afe18491e185a6e186ab,
   0x01e18487e185a9e186bce18489e185a1, 0x01e18487e185a9e186bce1848ce185b5, 0x01e18487e185a9e186bce18490e185ae, 0x01e18487e185aee18480e185b3e186ab,
   0x01e18487e185aee18481e185b3e18485e185a5e1848be185aee186b7, 0x01e18487e185aee18483e185a1e186b7, 0x01e18487e185aee18483e185a9e186bce18489e185a1e186ab, 0x01e18487e185aee18486e185aee186ab,
   0x01e18487e185aee18487e185aee186ab, 0x01e18487e185aee18489e185a1e186ab, 0x01e18487e185aee18489e185a1e186bc, 0x01e18487e185aee1848be185a5e186bf,
   0x01e18487e185aee1848be185b5e186ab, 0x01e18487e185aee1848ce185a1e186a8e1848be185ade186bc, 0x01e18487e185aee1848ce185a1e186bc, 0x01e18487e185aee1848ce185a5e186bc,
   0x01e18487e185aee1848ce185a9e186a8, 0x01e18487e185aee1848ce185b5e18485e185a5e186abe18492e185b5, 0x01e18487e185aee1848ee185b5e186ab, 0x01e18487e185aee18490e185a1e186a8,
   0x01e18487e185aee18491e185aee186b7, 0x01e18487e185aee18492e185ace1848ce185a1e186bc, 0x01e18487e185aee186a8e18487e185ae, 0x01e18487e185aee186a8e18492e185a1e186ab,
   0x01e18487e185aee186abe18482e185a9, 0x01e18487e185aee186abe18485e185a3e186bc, 0x01e18487e185aee186abe18485e185b5, 0x01e18487e185aee186abe18486e185a7e186bc]

/-- Entries 704 to 767 of `korean` (include/cardano/bip39_dictionary.hpp:14567-17666): 분석 … 사춘기 -/
def korean11 : List Nat :=
  [0x01e18487e185aee186abe18489e185a5e186a8, 0x01e18487e185aee186abe1848be185a3, 0x01e18487e185aee186abe1848be185b1e18480e185b5, 0x01e18487e185aee186abe18491e185b5e186af,
   0x01e18487e185aee186abe18492e185a9e186bce18489e185a2e186a8, 0x01e18487e185aee186afe18480e185a9e18480e185b5, 0x01e18487e185aee186afe18480e185aa, 0x01e18487e185aee186afe18480e185ad,
   0x01e18487e185aee186afe18481e185a9e186be, 0x01e18487e185aee186afe18486e185a1e186ab, 0x01e18487e185aee186afe18487e185a5e186b8, 0x01e18487e185aee186afe18487e185b5e186be,
   0x01e18487e185aee186afe1848be185a1e186ab, 0x01e18487e185aee186afe1848be185b5e1848be185b5e186a8, 0x01e18487e185aee186afe18492e185a2e186bc, 0x01e18487e185b3e18485e185a2e186abe18483e185b3,
   0x01e18487e185b5e18480e185b3e186a8, 0x01e18487e185b5e18482e185a1e186ab, 0x01e18487e185b5e18482e185b5e186af, 0x01e18487e185b5e18483e185aee186afe18480e185b5,
   0x01e18487e185b5e18483e185b5e1848be185a9, 0x01e18487e185b5e18485e185a9e18489e185a9, 0x01e18487e185b5e18486e185a1e186ab, 0x01e18487e185b5e18486e185a7e186bc,
   0x01e18487e185b5e18486e185b5e186af, 0x01e18487e185b5e18487e185a1e18485e185a1e186b7, 0x01e18487e185b5e18487e185b5e186b7e18487e185a1e186b8, 0x01e18487e185b5e18489e185a1e186bc,
   0x01e18487e185b5e1848be185ade186bc, 0x01e18487e185b5e1848be185b2e186af, 0x01e18487e185b5e1848ce185aee186bc, 0x01e18487e185b5e18490e185a1e18486e185b5e186ab,
   0x01e18487e185b5e18491e185a1e186ab, 0x01e18487e185b5e186afe18483e185b5e186bc, 0x01e18487e185b5e186bae18486e185aee186af, 0x01e18487e185b5e186bae18487e185a1e186bce1848be185aee186af,
   0x01e18487e185b5e186bae1848ce185aee186afe18480e185b5, 0x01e18487e185b5e186bee18481e185a1e186af, 0x01e18488e185a1e186afe18480e185a1e186abe18489e185a2e186a8, 0x01e18488e185a1e186afe18485e185a2,
   0x01e18488e185a1e186afe18485e185b5, 0x01e18489e185a1e18480e185a5e186ab, 0x01e18489e185a1e18480e185a8e1848ce185a5e186af, 0x01e18489e185a1e18482e185a1e1848be185b5,
   0x01e18489e185a1e18482e185a3e186bc, 0x01e18489e185a1e18485e185a1e186b7, 0x01e18489e185a1e18485e185a1e186bc, 0x01e18489e185a1e18485e185b5e186b8,
   0x01e18489e185a1e18486e185a9e18482e185b5e186b7, 0x01e18489e185a1e18486e185aee186af, 0x01e18489e185a1e18487e185a1e186bc, 0x01e18489e185a1e18489e185a1e186bc,
   0x01e18489e185a1e18489e185a2e186bce18492e185aae186af, 0x01e18489e185a1e18489e185a5e186af, 0x01e18489e185a1e18489e185b3e186b7, 0x01e18489e185a1e18489e185b5e186af,
   0x01e18489e185a1e1848be185a5e186b8, 0x01e18489e185a1e1848be185ade186bc, 0x01e18489e185a1e1848be185afe186af, 0x01e18489e185a1e1848ce185a1e186bc,
   0x01e18489e185a1e1848ce185a5e186ab, 0x01e18489e185a1e1848ce185b5e186ab, 0x01e18489e185a1e1848ee185a9e186ab, 0x01e18489e185a1e1848ee185aee186abe18480e185b5]

/-- Entries 768 to 831 of `korean` (include/cardano/bip39_dictionary.hpp:14567-17666): 사탕 … 선장 -/
def korean12 : List Nat :=
  [0x01e18489e185a1e18490e185a1e186bc, 0x01e18489e185a1e18490e185aee18485e185b5, 0x01e18489e185a1e18492e185b3e186af, 0x01e18489e185a1e186abe18480e185b5e186af,
   0x01e18489e185a1e186abe18487e185aee1848be185b5e186abe18480e185aa, 0x01e18489e185a1e186abe1848be185a5e186b8, 0x01e18489e185a1e186abe1848ee185a2e186a8, 0x01e18489e185a1e186afe18485e185b5e186b7,
   0x01e18489e185a1e186afe1848be185b5e186ab, 0x01e18489e185a1e186afe1848de185a1e186a8, 0x01e18489e185a1e186b7e18480e185a8e18490e185a1e186bc, 0x01e18489e185a1e186b7e18480e185aee186a8,
   0x01e18489e185a1e186b7e18489e185b5e186b8, 0x01e18489e185a1e186b7e1848be185afe186af, 0x01e18489e185a1e186b7e1848ee185a9e186ab, 0x01e18489e185a1e186bce18480e185aae186ab,
   0x01e18489e185a1e186bce18480e185b3e186b7, 0x01e18489e185a1e186bce18483e185a2, 0x01e18489e185a1e186bce18485e185b2, 0x01e18489e185a1e186bce18487e185a1e186abe18480e185b5,
   0x01e18489e185a1e186bce18489e185a1e186bc, 0x01e18489e185a1e186bce18489e185b5e186a8, 0x01e18489e185a1e186bce1848be185a5e186b8, 0x01e18489e185a1e186bce1848be185b5e186ab,
   0x01e18489e185a1e186bce1848ce185a1, 0x01e18489e185a1e186bce1848ce185a5e186b7, 0x01e18489e185a1e186bce1848ee185a5, 0x01e18489e185a1e186bce1848ee185ae,
   0x01e18489e185a1e186bce18490e185a2, 0x01e18489e185a1e186bce18491e185ad, 0x01e18489e185a1e186bce18491e185aee186b7, 0x01e18489e185a1e186bce18492e185aae186bc,
   0x01e18489e185a2e18487e185a7e186a8, 0x01e18489e185a2e186a8e18481e185a1e186af, 0x01e18489e185a2e186a8e1848be185a7e186abe18491e185b5e186af, 0x01e18489e185a2e186bce18480e185a1e186a8,
   0x01e18489e185a2e186bce18486e185a7e186bc, 0x01e18489e185a2e186bce18486e185aee186af, 0x01e18489e185a2e186bce18487e185a1e186bce18489e185a9e186bc, 0x01e18489e185a2e186bce18489e185a1e186ab,
   0x01e18489e185a2e186bce18489e185a5e186ab, 0x01e18489e185a2e186bce18489e185b5e186ab, 0x01e18489e185a2e186bce1848be185b5e186af, 0x01e18489e185a2e186bce18492e185aae186af,
   0x01e18489e185a5e18485e185a1e186b8, 0x01e18489e185a5e18485e185b3e186ab, 0x01e18489e185a5e18486e185a7e186bc, 0x01e18489e185a5e18486e185b5e186ab,
   0x01e18489e185a5e18487e185b5e18489e185b3, 0x01e18489e185a5e1848be185a3e186bc, 0x01e18489e185a5e1848be185aee186af, 0x01e18489e185a5e1848ce185a5e186a8,
   0x01e18489e185a5e1848ce185a5e186b7, 0x01e18489e185a5e1848de185a9e186a8, 0x01e18489e185a5e1848fe185b3e186af, 0x01e18489e185a5e186a8e18489e185a1,
   0x01e18489e185a5e186a8e1848be185b2, 0x01e18489e185a5e186abe18480e185a5, 0x01e18489e185a5e186abe18486e185aee186af, 0x01e18489e185a5e186abe18487e185a2,
   0x01e18489e185a5e186abe18489e185a2e186bc, 0x01e18489e185a5e186abe18489e185ae, 0x01e18489e185a5e186abe1848be185afe186ab, 0x01e18489e185a5e186abe1848ce185a1e186bc]

/-- Entries 832 to 895 of `korean` (include/cardano/bip39_dictionary.hpp:14567-17666): 선전 … 손해 -/
def korean13 : List Nat :=
  [0x01e18489e185a5e186abe1848ce185a5e186ab, 0x01e18489e185a5e186abe18490e185a2e186a8, 0x01e18489e185a5e186abe18491e185aee186bce18480e185b5, 0x01e18489e185a5e186afe18480e185a5e1848ce185b5,
   0x01e18489e185a5e186afe18482e185a1e186af, 0x01e18489e185a5e186afe18485e185a5e186bce18490e185a1e186bc, 0x01e18489e185a5e186afe18486e185a7e186bc, 0x01e18489e185a5e186afe18486e185aee186ab,
   0x01e18489e185a5e186afe18489e185a1, 0x01e18489e185a5e186afe1848be185a1e186a8e18489e185a1e186ab, 0x01e18489e185a5e186afe1848ee185b5, 0x01e18489e185a5e186afe18490e185a1e186bc,
   0x01e18489e185a5e186b8e1848ae185b5, 0x01e18489e185a5e186bce18480e185a9e186bc, 0x01e18489e185a5e186bce18483e185a1e186bc, 0x01e18489e185a5e186bce18486e185a7e186bc,
   0x01e18489e185a5e186bce18487e185a7e186af, 0x01e18489e185a5e186bce1848be185b5e186ab, 0x01e18489e185a5e186bce1848ce185a1e186bc, 0x01e18489e185a5e186bce1848ce185a5e186a8,
   0x01e18489e185a5e186bce1848ce185b5e186af, 0x01e18489e185a5e186bce18492e185a1e186b7, 0x01e18489e185a6e18480e185b3e186b7, 0x01e18489e185a6e18486e185b5e18482e185a1,
   0x01e18489e185a6e18489e185a1e186bc, 0x01e18489e185a6e1848be185afe186af, 0x01e18489e185a6e1848ce185a9e186bce18483e185a2e1848be185aae186bc, 0x01e18489e185a6e18490e185a1e186a8,
   0x01e18489e185a6e186abe18490e185a5, 0x01e18489e185a6e186abe18490e185b5e18486e185b5e18490e185a5, 0x01e18489e185a6e186bae1848de185a2, 0x01e18489e185a9e18480e185b2e18486e185a9,
   0x01e18489e185a9e18480e185b3e186a8e1848ce185a5e186a8, 0x01e18489e185a9e18480e185b3e186b7, 0x01e18489e185a9e18482e185a1e18480e185b5, 0x01e18489e185a9e18482e185a7e186ab,
   0x01e18489e185a9e18483e185b3e186a8, 0x01e18489e185a9e18486e185a1e186bc, 0x01e18489e185a9e18486e185aee186ab, 0x01e18489e185a9e18489e185a5e186af,
   0x01e18489e185a9e18489e185a9e186a8, 0x01e18489e185a9e1848be185a1e18480e185aa, 0x01e18489e185a9e1848be185ade186bc, 0x01e18489e185a9e1848be185afe186ab,
   0x01e18489e185a9e1848be185b3e186b7, 0x01e18489e185a9e1848ce185aee186bce18492e185b5, 0x01e18489e185a9e1848ce185b5e18491e185aee186b7, 0x01e18489e185a9e1848ce185b5e186af,
   0x01e18489e185a9e18491e185aee186bc, 0x01e18489e185a9e18492e185a7e186bc, 0x01e18489e185a9e186a8e18483e185a1e186b7, 0x01e18489e185a9e186a8e18483e185a9,
   0x01e18489e185a9e186a8e1848be185a9e186ba, 0x01e18489e185a9e186abe18480e185a1e18485e185a1e186a8, 0x01e18489e185a9e186abe18480e185b5e186af, 0x01e18489e185a9e186abe18482e185a7,
   0x01e18489e185a9e186abe18482e185b5e186b7, 0x01e18489e185a9e186abe18483e185b3e186bc, 0x01e18489e185a9e186abe18486e185a9e186a8, 0x01e18489e185a9e186abe18488e185a7e186a8,
   0x01e18489e185a9e186abe18489e185b5e186af, 0x01e18489e185a9e186abe1848ce185b5e186af, 0x01e18489e185a9e186abe18490e185a9e186b8, 0x01e18489e185a9e186abe18492e185a2]

/-- Entries 896 to 959 of `korean` (include/cardano/bip39_dictionary.hpp:14567-17666): 솔직히 … 시간 -/
def korean14 : List Nat :=
  [0x01e18489e185a9e186afe1848ce185b5e186a8e18492e185b5, 0x01e18489e185a9e186b7e1848ae185b5, 0x01e18489e185a9e186bce1848be185a1e1848ce185b5, 0x01e18489e185a9e186bce1848be185b5,
   0x01e18489e185a9e186bce18491e185a7e186ab, 0x01e18489e185ace18480e185a9e18480e185b5, 0x01e18489e185ade18491e185b5e186bc, 0x01e18489e185aee18480e185a5e186ab,
   0x01e18489e185aee18482e185a7e186ab, 0x01e18489e185aee18483e185a1e186ab, 0x01e18489e185aee18483e185a9e186bae18486e185aee186af, 0x01e18489e185aee18483e185a9e186bce1848ce185a5e186a8,
   0x01e18489e185aee18486e185a7e186ab, 0x01e18489e185aee18486e185a7e186bc, 0x01e18489e185aee18487e185a1e186a8, 0x01e18489e185aee18489e185a1e186bc,
   0x01e18489e185aee18489e185a5e186a8, 0x01e18489e185aee18489e185aee186af, 0x01e18489e185aee18489e185b5e18485e185a9, 0x01e18489e185aee1848be185a5e186b8,
   0x01e18489e185aee1848be185a7e186b7, 0x01e18489e185aee1848be185a7e186bc, 0x01e18489e185aee1848be185b5e186b8, 0x01e18489e185aee1848ce185aee186ab,
   0x01e18489e185aee1848ce185b5e186b8, 0x01e18489e185aee1848ee185aee186af, 0x01e18489e185aee1848fe185a5e186ba, 0x01e18489e185aee18491e185b5e186af,
   0x01e18489e185aee18492e185a1e186a8, 0x01e18489e185aee18492e185a5e186b7e18489e185a2e186bc, 0x01e18489e185aee18492e185aae18480e185b5, 0x01e18489e185aee186a8e18482e185a7,
   0x01e18489e185aee186a8e18489e185a9, 0x01e18489e185aee186a8e1848ce185a6, 0x01e18489e185aee186abe18480e185a1e186ab, 0x01e18489e185aee186abe18489e185a5,
   0x01e18489e185aee186abe18489e185ae, 0x01e18489e185aee186abe18489e185b5e186a8e18480e185a1e186ab, 0x01e18489e185aee186abe1848be185b1, 0x01e18489e185aee186aee18480e185a1e18485e185a1e186a8,
   0x01e18489e185aee186afe18487e185a7e186bc, 0x01e18489e185aee186afe1848ce185b5e186b8, 0x01e18489e185aee186bae1848ce185a1, 0x01e18489e185b3e18482e185b5e186b7,
   0x01e18489e185b3e18486e185aee186af, 0x01e18489e185b3e18489e185b3e18485e185a9, 0x01e18489e185b3e18489e185b3e186bc, 0x01e18489e185b3e1848be185b0e18490e185a5,
   0x01e18489e185b3e1848be185b1e1848ee185b5, 0x01e18489e185b3e1848fe185a6e1848be185b5e18490e185b3, 0x01e18489e185b3e18490e185b2e18483e185b5e1848be185a9, 0x01e18489e185b3e18490e185b3e18485e185a6e18489e185b3,
   0x01e18489e185b3e18491e185a9e1848ee185b3, 0x01e18489e185b3e186afe1848de185a5e186a8, 0x01e18489e185b3e186afe18491e185b3e186b7, 0x01e18489e185b3e186b8e18480e185aae186ab,
   0x01e18489e185b3e186b8e18480e185b5, 0x01e18489e185b3e186bce18480e185a2e186a8, 0x01e18489e185b3e186bce18485e185b5, 0x01e18489e185b3e186bce18487e185ae,
   0x01e18489e185b3e186bce1848be185ade186bce1848ee185a1, 0x01e18489e185b3e186bce1848ce185b5e186ab, 0x01e18489e185b5e18480e185a1e186a8, 0x01e18489e185b5e18480e185a1e186ab]

/-- Entries 960 to 1023 of `korean` (include/cardano/bip39_dictionary.hpp:14567-17666): 시골 … 실체 -/
def korean15 : List Nat :=
  [0x01e18489e185b5e18480e185a9e186af, 0x01e18489e185b5e18480e185b3e186b7e1848ee185b5, 0x01e18489e185b5e18482e185a1e18485e185b5e1848be185a9, 0x01e18489e185b5e18483e185a2e186a8,
   0x01e18489e185b5e18485e185b5e1848ce185b3, 0x01e18489e185b5e18486e185a6e186abe18490e185b3, 0x01e18489e185b5e18486e185b5e186ab, 0x01e18489e185b5e18487e185aee18486e185a9,
   0x01e18489e185b5e18489e185a5e186ab, 0x01e18489e185b5e18489e185a5e186af, 0x01e18489e185b5e18489e185b3e18490e185a6e186b7, 0x01e18489e185b5e1848be185a1e18487e185a5e1848ce185b5,
   0x01e18489e185b5e1848be185a5e18486e185a5e18482e185b5, 0x01e18489e185b5e1848be185afe186af, 0x01e18489e185b5e1848be185b5e186ab, 0x01e18489e185b5e1848be185b5e186af,
   0x01e18489e185b5e1848ce185a1e186a8, 0x01e18489e185b5e1848ce185a1e186bc, 0x01e18489e185b5e1848ce185a5e186af, 0x01e18489e185b5e1848ce185a5e186b7,
   0x01e18489e185b5e1848ce185aee186bc, 0x01e18489e185b5e1848ce185b3e186ab, 0x01e18489e185b5e1848ce185b5e186b8, 0x01e18489e185b5e1848ee185a5e186bc,
   0x01e18489e185b5e18492e185a1e186b8, 0x01e18489e185b5e18492e185a5e186b7, 0x01e18489e185b5e186a8e18480e185ae, 0x01e18489e185b5e186a8e18480e185b5,
   0x01e18489e185b5e186a8e18483e185a1e186bc, 0x01e18489e185b5e186a8e18485e185a3e186bc, 0x01e18489e185b5e186a8e18485e185ade18491e185aee186b7, 0x01e18489e185b5e186a8e18486e185aee186af,
   0x01e18489e185b5e186a8e18488e185a1e186bc, 0x01e18489e185b5e186a8e18489e185a1, 0x01e18489e185b5e186a8e18489e185a2e186bce18492e185aae186af, 0x01e18489e185b5e186a8e1848ee185a9,
   0x01e18489e185b5e186a8e18490e185a1e186a8, 0x01e18489e185b5e186a8e18491e185aee186b7, 0x01e18489e185b5e186abe18480e185a9, 0x01e18489e185b5e186abe18480e185b2,
   0x01e18489e185b5e186abe18482e185a7e186b7, 0x01e18489e185b5e186abe18486e185aee186ab, 0x01e18489e185b5e186abe18487e185a1e186af, 0x01e18489e185b5e186abe18487e185b5,
   0x01e18489e185b5e186abe18489e185a1, 0x01e18489e185b5e186abe18489e185a6, 0x01e18489e185b5e186abe1848be185ade186bc, 0x01e18489e185b5e186abe1848ce185a6e18491e185aee186b7,
   0x01e18489e185b5e186abe1848ee185a5e186bc, 0x01e18489e185b5e186abe1848ee185a6, 0x01e18489e185b5e186abe18492e185aa, 0x01e18489e185b5e186afe18480e185a1e186b7,
   0x01e18489e185b5e186afe18482e185a2, 0x01e18489e185b5e186afe18485e185a7e186a8, 0x01e18489e185b5e186afe18485e185a8, 0x01e18489e185b5e186afe18486e185a1e186bc,
   0x01e18489e185b5e186afe18489e185ae, 0x01e18489e185b5e186afe18489e185b3e186b8, 0x01e18489e185b5e186afe18489e185b5, 0x01e18489e185b5e186afe1848ce185a1e186bc,
   0x01e18489e185b5e186afe1848ce185a5e186bc, 0x01e18489e185b5e186afe1848ce185b5e186afe1848ce185a5e186a8, 0x01e18489e185b5e186afe1848ee185a5e186ab, 0x01e18489e185b5e186afe1848ee185a6]

/-- Entries 1024 to 1087 of `korean` (include/cardano/bip39_dictionary.hpp:14567-17666): 실컷 … 약혼녀 -/
def korean16 : List Nat :=
  [0x01e18489e185b5e186afe1848fe185a5e186ba, 0x01e18489e185b5e186afe18490e185a2, 0x01e18489e185b5e186afe18491e185a2, 0x01e18489e185b5e186afe18492e185a5e186b7,
   0x01e18489e185b5e186afe18492e185a7e186ab, 0x01e18489e185b5e186b7e18485e185b5, 0x01e18489e185b5e186b7e18487e185aee18485e185b3e186b7, 0x01e18489e185b5e186b7e18489e185a1,
   0x01e18489e185b5e186b7e1848ce185a1e186bc, 0x01e18489e185b5e186b7e1848ce185a5e186bc, 0x01e18489e185b5e186b7e18491e185a1e186ab, 0x01e1848ae185a1e186bce18483e185aee186bce1848be185b5,
   0x01e1848ae185b5e18485e185b3e186b7, 0x01e1848ae185b5e1848be185a1e186ba, 0x01e1848be185a1e18480e185a1e1848ae185b5, 0x01e1848be185a1e18482e185a1e1848be185aee186abe18489e185a5,
   0x01e1848be185a1e18483e185b3e18482e185b5e186b7, 0x01e1848be185a1e18483e185b3e186af, 0x01e1848be185a1e18489e185b1e1848be185aee186b7, 0x01e1848be185a1e18489e185b3e18491e185a1e186afe18490e185b3,
   0x01e1848be185a1e18489e185b5e1848be185a1, 0x01e1848be185a1e1848be185aee186afe18485e185a5, 0x01e1848be185a1e1848ce185a5e1848ae185b5, 0x01e1848be185a1e1848ce185aee186b7e18486e185a1,
   0x01e1848be185a1e1848ce185b5e186a8, 0x01e1848be185a1e1848ee185b5e186b7, 0x01e1848be185a1e18491e185a1e18490e185b3, 0x01e1848be185a1e18491e185b3e18485e185b5e1848fe185a1,
   0x01e1848be185a1e18491e185b3e186b7, 0x01e1848be185a1e18492e185a9e186b8, 0x01e1848be185a1e18492e185b3e186ab, 0x01e1848be185a1e186a8e18480e185b5,
   0x01e1848be185a1e186a8e18486e185a9e186bc, 0x01e1848be185a1e186a8e18489e185ae, 0x01e1848be185a1e186abe18480e185a2, 0x01e1848be185a1e186abe18480e185a7e186bc,
   0x01e1848be185a1e186abe18480e185aa, 0x01e1848be185a1e186abe18482e185a2, 0x01e1848be185a1e186abe18482e185a7e186bc, 0x01e1848be185a1e186abe18483e185a9e186bc,
   0x01e1848be185a1e186abe18487e185a1e186bc, 0x01e1848be185a1e186abe18487e185ae, 0x01e1848be185a1e186abe1848ce185ae, 0x01e1848be185a1e186afe18485e185aee18486e185b5e18482e185b2e186b7,
   0x01e1848be185a1e186afe1848fe185a9e1848be185a9e186af, 0x01e1848be185a1e186b7e18489e185b5, 0x01e1848be185a1e186b7e1848fe185a5e186ba, 0x01e1848be185a1e186b8e18485e185a7e186a8,
   0x01e1848be185a1e18781e18482e185a1e186af, 0x01e1848be185a1e18781e18486e185aee186ab, 0x01e1848be185a2e1848be185b5e186ab, 0x01e1848be185a2e1848ce185a5e186bc,
   0x01e1848be185a2e186a8e18489e185ae, 0x01e1848be185a2e186afe18487e185a5e186b7, 0x01e1848be185a3e18480e185a1e186ab, 0x01e1848be185a3e18483e185a1e186ab,
   0x01e1848be185a3e1848be185a9e186bc, 0x01e1848be185a3e186a8e18480e185a1e186ab, 0x01e1848be185a3e186a8e18480e185aee186a8, 0x01e1848be185a3e186a8e18489e185a9e186a8,
   0x01e1848be185a3e186a8e18489e185ae, 0x01e1848be185a3e186a8e1848ce185a5e186b7, 0x01e1848be185a3e186a8e18491e185aee186b7, 0x01e1848be185a3e186a8e18492e185a9e186abe18482e185a7]

/-- Entries 1088 to 1151 of `korean` (include/cardano/bip39_dictionary.hpp:14567-17666): 양념 … 연애 -/
def korean17 : List Nat :=
  [0x01e1848be185a3e186bce18482e185a7e186b7, 0x01e1848be185a3e186bce18485e185a7e186a8, 0x01e1848be185a3e186bce18486e185a1e186af, 0x01e1848be185a3e186bce18487e185a2e1848ee185ae,
   0x01e1848be185a3e186bce1848ce185ae, 0x01e1848be185a3e186bce18491e185a1, 0x01e1848be185a5e18483e185aee186b7, 0x01e1848be185a5e18485e185a7e1848be185aee186b7,
   0x01e1848be185a5e18485e185b3e186ab, 0x01e1848be185a5e1848ce185a6e186bae18487e185a1e186b7, 0x01e1848be185a5e1848de185a2e186bbe18483e185b3e186ab, 0x01e1848be185a5e1848de185a5e18483e185a1e18480e185a1,
   0x01e1848be185a5e1848de185a5e186abe1848ce185b5, 0x01e1848be185a5e186abe18482e185b5, 0x01e1848be185a5e186abe18483e185a5e186a8, 0x01e1848be185a5e186abe18485e185a9e186ab,
   0x01e1848be185a5e186abe1848be185a5, 0x01e1848be185a5e186afe18480e185aee186af, 0x01e1848be185a5e186afe18485e185b3e186ab, 0x01e1848be185a5e186afe1848be185b3e186b7,
   0x01e1848be185a5e186afe18491e185b5e186ba, 0x01e1848be185a5e186b7e18486e185a1, 0x01e1848be185a5e186b8e18486e185ae, 0x01e1848be185a5e186b8e1848ce185a9e186bc,
   0x01e1848be185a5e186b8e1848ee185a6, 0x01e1848be185a5e186bce18483e185a5e186bce1848be185b5, 0x01e1848be185a5e186bce18486e185a1e186bc, 0x01e1848be185a5e186bce18490e185a5e18485e185b5,
   0x01e1848be185a5e186bde18480e185b3e1848ce185a6, 0x01e1848be185a6e18482e185a5e1848ce185b5, 0x01e1848be185a6e1848be185a5e1848fe185a5e186ab, 0x01e1848be185a6e186abe1848ce185b5e186ab,
   0x01e1848be185a7e18480e185a5e186ab, 0x01e1848be185a7e18480e185a9e18489e185a2e186bc, 0x01e1848be185a7e18480e185aae186ab, 0x01e1848be185a7e18480e185aee186ab,
   0x01e1848be185a7e18480e185afe186ab, 0x01e1848be185a7e18483e185a2e18489e185a2e186bc, 0x01e1848be185a7e18483e185a5e186b2, 0x01e1848be185a7e18483e185a9e186bce18489e185a2e186bc,
   0x01e1848be185a7e18483e185b3e186ab, 0x01e1848be185a7e18485e185a9e186ab, 0x01e1848be185a7e18485e185b3e186b7, 0x01e1848be185a7e18489e185a5e186ba,
   0x01e1848be185a7e18489e185a5e186bc, 0x01e1848be185a7e1848be185aae186bc, 0x01e1848be185a7e1848be185b5e186ab, 0x01e1848be185a7e1848ce185a5e186abe18492e185b5,
   0x01e1848be185a7e1848ce185b5e186a8e1848be185afe186ab, 0x01e1848be185a7e18492e185a1e186a8e18489e185a2e186bc, 0x01e1848be185a7e18492e185a2e186bc, 0x01e1848be185a7e186a8e18489e185a1,
   0x01e1848be185a7e186a8e18489e185b5, 0x01e1848be185a7e186a8e18492e185a1e186af, 0x01e1848be185a7e186abe18480e185a7e186af, 0x01e1848be185a7e186abe18480e185ae,
   0x01e1848be185a7e186abe18480e185b3e186a8, 0x01e1848be185a7e186abe18480e185b5, 0x01e1848be185a7e186abe18485e185a1e186a8, 0x01e1848be185a7e186abe18489e185a5e186af,
   0x01e1848be185a7e186abe18489e185a6, 0x01e1848be185a7e186abe18489e185a9e186a8, 0x01e1848be185a7e186abe18489e185b3e186b8, 0x01e1848be185a7e186abe1848be185a2]

/-- Entries 1152 to 1215 of `korean` (include/cardano/bip39_dictionary.hpp:14567-17666): 연예인 … 옥수수 -/
def korean18 : List Nat :=
  [0x01e1848be185a7e186abe1848be185a8e1848be185b5e186ab, 0x01e1848be185a7e186abe1848be185b5e186ab, 0x01e1848be185a7e186abe1848ce185a1e186bc, 0x01e1848be185a7e186abe1848ce185ae,
   0x01e1848be185a7e186abe1848ee185aee186af, 0x01e1848be185a7e186abe18491e185b5e186af, 0x01e1848be185a7e186abe18492e185a1e186b8, 0x01e1848be185a7e186abe18492e185b2,
   0x01e1848be185a7e186afe18480e185b5, 0x01e1848be185a7e186afe18486e185a2, 0x01e1848be185a7e186afe18489e185ac, 0x01e1848be185a7e186afe18489e185b5e186b7e18492e185b5,
   0x01e1848be185a7e186afe1848ce185a5e186bc, 0x01e1848be185a7e186afe1848ee185a1, 0x01e1848be185a7e186afe18492e185b3e186af, 0x01e1848be185a7e186b7e18485e185a7,
   0x01e1848be185a7e186b8e18489e185a5, 0x01e1848be185a7e186bce18480e185aee186a8, 0x01e1848be185a7e186bce18482e185a1e186b7, 0x01e1848be185a7e186bce18489e185a1e186bc,
   0x01e1848be185a7e186bce1848be185a3e186bc, 0x01e1848be185a7e186bce1848be185a7e186a8, 0x01e1848be185a7e186bce1848be185aee186bc, 0x01e1848be185a7e186bce1848be185afe186abe18492e185b5,
   0x01e1848be185a7e186bce18492e185a1, 0x01e1848be185a7e186bce18492e185a3e186bc, 0x01e1848be185a7e186bce18492e185a9e186ab, 0x01e1848be185a7e186bce18492e185aa,
   0x01e1848be185a7e18781e18480e185aee18485e185b5, 0x01e1848be185a7e18781e18487e185a1e186bc, 0x01e1848be185a7e18781e1848ce185b5e186b8, 0x01e1848be185a8e18480e185a1e186b7,
   0x01e1848be185a8e18480e185b3e186b7, 0x01e1848be185a8e18487e185a1e186bc, 0x01e1848be185a8e18489e185a1e186ab, 0x01e1848be185a8e18489e185a1e186bc,
   0x01e1848be185a8e18489e185a5e186ab, 0x01e1848be185a8e18489e185aee186af, 0x01e1848be185a8e18489e185b3e186b8, 0x01e1848be185a8e18489e185b5e186a8e1848ce185a1e186bc,
   0x01e1848be185a8e1848be185a3e186a8, 0x01e1848be185a8e1848ce185a5e186ab, 0x01e1848be185a8e1848ce185a5e186af, 0x01e1848be185a8e1848ce185a5e186bc,
   0x01e1848be185a8e1848fe185a5e186abe18483e185a2, 0x01e1848be185a8e186bae18482e185a1e186af, 0x01e1848be185a9e18482e185b3e186af, 0x01e1848be185a9e18485e185a1e186a8,
   0x01e1848be185a9e18485e185a2e186bae18483e185a9e186bce1848be185a1e186ab, 0x01e1848be185a9e18485e185a6e186abe1848ce185b5, 0x01e1848be185a9e18485e185a9e1848ce185b5, 0x01e1848be185a9e18485e185b3e186abe18487e185a1e186af,
   0x01e1848be185a9e18487e185b3e186ab, 0x01e1848be185a9e18489e185b5e186b8, 0x01e1848be185a9e1848be185a7e186b7, 0x01e1848be185a9e1848be185afe186af,
   0x01e1848be185a9e1848ce185a5e186ab, 0x01e1848be185a9e1848ce185b5e186a8, 0x01e1848be185a9e1848ce185b5e186bce1848be185a5, 0x01e1848be185a9e18491e185a6e18485e185a1,
   0x01e1848be185a9e18491e185b5e18489e185b3e18490e185a6e186af, 0x01e1848be185a9e18492e185b5e18485e185a7, 0x01e1848be185a9e186a8e18489e185a1e186bc, 0x01e1848be185a9e186a8e18489e185aee18489e185ae]

/-- Entries 1216 to 1279 of `korean` (include/cardano/bip39_dictionary.hpp:14567-17666): 온갖 … 웨이터 -/
def korean19 : List Nat :=
  [0x01e1848be185a9e186abe18480e185a1e186bd, 0x01e1848be185a9e186abe18485e185a1e1848be185b5e186ab, 0x01e1848be185a9e186abe18486e185a9e186b7, 0x01e1848be185a9e186abe1848ce185a9e186bce1848be185b5e186af,
   0x01e1848be185a9e186abe18490e185a9e186bc, 0x01e1848be185a9e186afe18480e185a1e1848be185b3e186af, 0x01e1848be185a9e186afe18485e185b5e186b7e18491e185b5e186a8, 0x01e1848be185a9e186afe18492e185a2,
   0x01e1848be185a9e186bae1848ee185a1e18485e185b5e186b7, 0x01e1848be185aae1848be185b5e18489e185a7e1848ee185b3, 0x01e1848be185aae1848be185b5e186ab, 0x01e1848be185aae186abe18489e185a5e186bc,
   0x01e1848be185aae186abe1848ce185a5e186ab, 0x01e1848be185aae186bce18487e185b5, 0x01e1848be185aae186bce1848ce185a1, 0x01e1848be185abe18482e185a3e18492e185a1e18486e185a7e186ab,
   0x01e1848be185abe186abe1848ce185b5, 0x01e1848be185ace18480e185a1e186bae1848ce185b5e186b8, 0x01e1848be185ace18480e185aee186a8, 0x01e1848be185ace18485e185a9e1848be185aee186b7,
   0x01e1848be185ace18489e185a1e186b7e1848ee185a9e186ab, 0x01e1848be185ace1848ee185aee186af, 0x01e1848be185ace1848ee185b5e186b7, 0x01e1848be185ace18492e185a1e186afe18486e185a5e18482e185b5,
   0x01e1848be185ace186abe18487e185a1e186af, 0x01e1848be185ace186abe18489e185a9e186ab, 0x01e1848be185ace186abe1848de185a9e186a8, 0x01e1848be185ade18480e185b3e186b7,
   0x01e1848be185ade1848be185b5e186af, 0x01e1848be185ade1848ce185b3e186b7, 0x01e1848be185ade1848ee185a5e186bc, 0x01e1848be185ade186bce18480e185b5,
   0x01e1848be185ade186bce18489e185a5, 0x01e1848be185ade186bce1848be185a5, 0x01e1848be185aee18489e185a1e186ab, 0x01e1848be185aee18489e185a5e186ab,
   0x01e1848be185aee18489e185b3e186bc, 0x01e1848be185aee1848be185a7e186abe18492e185b5, 0x01e1848be185aee1848ce185a5e186bc, 0x01e1848be185aee1848ee185a6e18480e185aee186a8,
   0x01e1848be185aee18491e185a7e186ab, 0x01e1848be185aee186abe18483e185a9e186bc, 0x01e1848be185aee186abe18486e185a7e186bc, 0x01e1848be185aee186abe18487e185a1e186ab,
   0x01e1848be185aee186abe1848ce185a5e186ab, 0x01e1848be185aee186abe18492e185a2e186bc, 0x01e1848be185aee186afe18489e185a1e186ab, 0x01e1848be185aee186afe1848be185b3e186b7,
   0x01e1848be185aee186b7e1848ce185b5e186a8e1848be185b5e186b7, 0x01e1848be185aee186bae1848be185a5e18485e185b3e186ab, 0x01e1848be185aee186bae1848be185b3e186b7, 0x01e1848be185afe18482e185a1e186a8,
   0x01e1848be185afe186abe18480e185a9, 0x01e1848be185afe186abe18485e185a2, 0x01e1848be185afe186abe18489e185a5, 0x01e1848be185afe186abe18489e185aee186bce1848be185b5,
   0x01e1848be185afe186abe1848be185b5e186ab, 0x01e1848be185afe186abe1848ce185a1e186bc, 0x01e1848be185afe186abe18491e185b5e18489e185b3, 0x01e1848be185afe186afe18480e185b3e186b8,
   0x01e1848be185afe186afe18483e185b3e1848fe185a5e186b8, 0x01e1848be185afe186afe18489e185a6, 0x01e1848be185afe186afe1848be185ade1848be185b5e186af, 0x01e1848be185b0e1848be185b5e18490e185a5]

/-- Entries 1280 to 1343 of `korean` (include/cardano/bip39_dictionary.hpp:14567-17666): 위반 … 이익 -/
def korean20 : List Nat :=
  [0x01e1848be185b1e18487e185a1e186ab, 0x01e1848be185b1e18487e185a5e186b8, 0x01e1848be185b1e18489e185a5e186bc, 0x01e1848be185b1e1848be185afe186ab,
   0x01e1848be185b1e18492e185a5e186b7, 0x01e1848be185b1e18492e185a7e186b8, 0x01e1848be185b1e186bae18489e185a1e18485e185a1e186b7, 0x01e1848be185b2e18482e185a1e186abe18492e185b5,
   0x01e1848be185b2e18485e185a5e186b8, 0x01e1848be185b2e18486e185a7e186bc, 0x01e1848be185b2e18486e185aee186af, 0x01e1848be185b2e18489e185a1e186ab,
   0x01e1848be185b2e1848ce185a5e186a8, 0x01e1848be185b2e1848ee185b5e1848be185afe186ab, 0x01e1848be185b2e18492e185a1e186a8, 0x01e1848be185b2e18492e185a2e186bc,
   0x01e1848be185b2e18492e185a7e186bc, 0x01e1848be185b2e186a8e18480e185aee186ab, 0x01e1848be185b2e186a8e18489e185a1e186bc, 0x01e1848be185b2e186a8e18489e185b5e186b8,
   0x01e1848be185b2e186a8e1848ee185a6, 0x01e1848be185b3e186abe18492e185a2e186bc, 0x01e1848be185b3e186b7e18485e185a7e186a8, 0x01e1848be185b3e186b7e18485e185ad,
   0x01e1848be185b3e186b7e18487e185a1e186ab, 0x01e1848be185b3e186b7e18489e185a5e186bc, 0x01e1848be185b3e186b7e18489e185b5e186a8, 0x01e1848be185b3e186b7e1848be185a1e186a8,
   0x01e1848be185b3e186b7e1848ce185ae, 0x01e1848be185b4e18480e185a7e186ab, 0x01e1848be185b4e18482e185a9e186ab, 0x01e1848be185b4e18486e185aee186ab,
   0x01e1848be185b4e18487e185a9e186a8, 0x01e1848be185b4e18489e185b5e186a8, 0x01e1848be185b4e18489e185b5e186b7, 0x01e1848be185b4e1848be185ace18485e185a9,
   0x01e1848be185b4e1848be185ade186a8, 0x01e1848be185b4e1848be185afe186ab, 0x01e1848be185b4e18492e185a1e186a8, 0x01e1848be185b5e18480e185a5e186ba,
   0x01e1848be185b5e18480e185a9e186ba, 0x01e1848be185b5e18482e185a7e186b7, 0x01e1848be185b5e18482e185a9e186b7, 0x01e1848be185b5e18483e185a1e186af,
   0x01e1848be185b5e18483e185a2e18485e185a9, 0x01e1848be185b5e18483e185a9e186bc, 0x01e1848be185b5e18485e185a5e18782e18480e185a6, 0x01e1848be185b5e18485e185a7e186a8e18489e185a5,
   0x01e1848be185b5e18485e185a9e186abe1848ce185a5e186a8, 0x01e1848be185b5e18485e185b3e186b7, 0x01e1848be185b5e18486e185b5e186ab, 0x01e1848be185b5e18487e185a1e186afe18489e185a9,
   0x01e1848be185b5e18487e185a7e186af, 0x01e1848be185b5e18487e185aee186af, 0x01e1848be185b5e18488e185a1e186af, 0x01e1848be185b5e18489e185a1e186bc,
   0x01e1848be185b5e18489e185a5e186bc, 0x01e1848be185b5e18489e185b3e186af, 0x01e1848be185b5e1848be185a3e18480e185b5, 0x01e1848be185b5e1848be185ade186bc,
   0x01e1848be185b5e1848be185aee186ba, 0x01e1848be185b5e1848be185afe186af, 0x01e1848be185b5e1848be185b3e186a8e18480e185a9, 0x01e1848be185b5e1848be185b5e186a8]

/-- Entries 1344 to 1407 of `korean` (include/cardano/bip39_dictionary.hpp:14567-17666): 이전 … 자식 -/
def korean21 : List Nat :=
  [0x01e1848be185b5e1848ce185a5e186ab, 0x01e1848be185b5e1848ce185aee186bc, 0x01e1848be185b5e18490e185b3e186aee18482e185a1e186af, 0x01e1848be185b5e18490e185b3e186af,
   0x01e1848be185b5e18492e185a9e186ab, 0x01e1848be185b5e186abe18480e185a1e186ab, 0x01e1848be185b5e186abe18480e185a7e186a8, 0x01e1848be185b5e186abe18480e185a9e186bc,
   0x01e1848be185b5e186abe18480e185ae, 0x01e1848be185b5e186abe18480e185b3e186ab, 0x01e1848be185b5e186abe18480e185b5, 0x01e1848be185b5e186abe18483e185a9,
   0x01e1848be185b5e186abe18485e185b2, 0x01e1848be185b5e186abe18486e185aee186af, 0x01e1848be185b5e186abe18489e185a2e186bc, 0x01e1848be185b5e186abe18489e185ab,
   0x01e1848be185b5e186abe1848be185a7e186ab, 0x01e1848be185b5e186abe1848be185afe186ab, 0x01e1848be185b5e186abe1848ce185a2, 0x01e1848be185b5e186abe1848ce185a9e186bc,
   0x01e1848be185b5e186abe1848ee185a5e186ab, 0x01e1848be185b5e186abe1848ee185a6, 0x01e1848be185b5e186abe18490e185a5e18482e185a6e186ba, 0x01e1848be185b5e186abe18492e185a1,
   0x01e1848be185b5e186abe18492e185a7e186bc, 0x01e1848be185b5e186afe18480e185a9e186b8, 0x01e1848be185b5e186afe18480e185b5, 0x01e1848be185b5e186afe18483e185a1e186ab,
   0x01e1848be185b5e186afe18483e185a2, 0x01e1848be185b5e186afe18483e185b3e186bc, 0x01e1848be185b5e186afe18487e185a1e186ab, 0x01e1848be185b5e186afe18487e185a9e186ab,
   0x01e1848be185b5e186afe18487e185ae, 0x01e1848be185b5e186afe18489e185a1e186bc, 0x01e1848be185b5e186afe18489e185a2e186bc, 0x01e1848be185b5e186afe18489e185a9e186ab,
   0x01e1848be185b5e186afe1848be185ade1848be185b5e186af, 0x01e1848be185b5e186afe1848be185afe186af, 0x01e1848be185b5e186afe1848ce185a5e186bc, 0x01e1848be185b5e186afe1848ce185a9e186bc,
   0x01e1848be185b5e186afe1848ce185aee1848be185b5e186af, 0x01e1848be185b5e186afe1848de185b5e186a8, 0x01e1848be185b5e186afe1848ee185a6, 0x01e1848be185b5e186afe1848ee185b5,
   0x01e1848be185b5e186afe18492e185a2e186bc, 0x01e1848be185b5e186afe18492e185ace1848be185ade186bc, 0x01e1848be185b5e186b7e18480e185b3e186b7, 0x01e1848be185b5e186b7e18486e185ae,
   0x01e1848be185b5e186b8e18483e185a2, 0x01e1848be185b5e186b8e18485e185a7e186a8, 0x01e1848be185b5e186b8e18486e185a1e186ba, 0x01e1848be185b5e186b8e18489e185a1,
   0x01e1848be185b5e186b8e18489e185aee186af, 0x01e1848be185b5e186b8e18489e185b5, 0x01e1848be185b5e186b8e1848be185afe186ab, 0x01e1848be185b5e186b8e1848ce185a1e186bc,
   0x01e1848be185b5e186b8e18492e185a1e186a8, 0x01e1848ce185a1e18480e185a1e1848be185ade186bc, 0x01e1848ce185a1e18480e185a7e186a8, 0x01e1848ce185a1e18480e185b3e186a8,
   0x01e1848ce185a1e18483e185a9e186bc, 0x01e1848ce185a1e18485e185a1e186bc, 0x01e1848ce185a1e18487e185aee18489e185b5e186b7, 0x01e1848ce185a1e18489e185b5e186a8]

/-- Entries 1408 to 1471 of `korean` (include/cardano/bip39_dictionary.hpp:14567-17666): 자신 … 저축 -/
def korean22 : List Nat :=
  [0x01e1848ce185a1e18489e185b5e186ab, 0x01e1848ce185a1e1848be185a7e186ab, 0x01e1848ce185a1e1848be185afe186ab, 0x01e1848ce185a1e1848be185b2e186af,
   0x01e1848ce185a1e1848ce185a5e186abe18480e185a5, 0x01e1848ce185a1e1848ce185a5e186bc, 0x01e1848ce185a1e1848ce185a9e186abe18489e185b5e186b7, 0x01e1848ce185a1e18491e185a1e186ab,
   0x01e1848ce185a1e186a8e18480e185a1, 0x01e1848ce185a1e186a8e18482e185a7e186ab, 0x01e1848ce185a1e186a8e18489e185a5e186bc, 0x01e1848ce185a1e186a8e1848be185a5e186b8,
   0x01e1848ce185a1e186a8e1848be185ade186bc, 0x01e1848ce185a1e186a8e1848be185b3e186abe18484e185a1e186af, 0x01e1848ce185a1e186a8e18491e185aee186b7, 0x01e1848ce185a1e186abe18483e185b5,
   0x01e1848ce185a1e186abe18484e185b3e186a8, 0x01e1848ce185a1e186abe1848ee185b5, 0x01e1848ce185a1e186afe18486e185a9e186ba, 0x01e1848ce185a1e186b7e18481e185a1e186ab,
   0x01e1848ce185a1e186b7e18489e185aee18492e185a1e186b7, 0x01e1848ce185a1e186b7e18489e185b5, 0x01e1848ce185a1e186b7e1848be185a9e186ba, 0x01e1848ce185a1e186b7e1848ce185a1e18485e185b5,
   0x01e1848ce185a1e186b8e1848ce185b5, 0x01e1848ce185a1e186bce18480e185aae186ab, 0x01e1848ce185a1e186bce18480e185aee186ab, 0x01e1848ce185a1e186bce18480e185b5e18480e185a1e186ab,
   0x01e1848ce185a1e186bce18485e185a2, 0x01e1848ce185a1e186bce18485e185a8, 0x01e1848ce185a1e186bce18485e185b3, 0x01e1848ce185a1e186bce18486e185a1,
   0x01e1848ce185a1e186bce18486e185a7e186ab, 0x01e1848ce185a1e186bce18486e185a9, 0x01e1848ce185a1e186bce18486e185b5, 0x01e1848ce185a1e186bce18487e185b5,
   0x01e1848ce185a1e186bce18489e185a1, 0x01e1848ce185a1e186bce18489e185a9, 0x01e1848ce185a1e186bce18489e185b5e186a8, 0x01e1848ce185a1e186bce1848be185a2e1848be185b5e186ab,
   0x01e1848ce185a1e186bce1848be185b5e186ab, 0x01e1848ce185a1e186bce1848ce185a5e186b7, 0x01e1848ce185a1e186bce1848ee185a1, 0x01e1848ce185a1e186bce18492e185a1e186a8e18480e185b3e186b7,
   0x01e1848ce185a2e18482e185b3e186bc, 0x01e1848ce185a2e18488e185a1e186afe18485e185b5, 0x01e1848ce185a2e18489e185a1e186ab, 0x01e1848ce185a2e18489e185a2e186bc,
   0x01e1848ce185a2e1848ce185a1e186a8e18482e185a7e186ab, 0x01e1848ce185a2e1848ce185a5e186bc, 0x01e1848ce185a2e1848ee185a2e18480e185b5, 0x01e1848ce185a2e18491e185a1e186ab,
   0x01e1848ce185a2e18492e185a1e186a8, 0x01e1848ce185a2e18492e185aae186afe1848be185ade186bc, 0x01e1848ce185a5e18480e185a5e186ba, 0x01e1848ce185a5e18480e185a9e18485e185b5,
   0x01e1848ce185a5e18480e185a9e186ba, 0x01e1848ce185a5e18482e185a7e186a8, 0x01e1848ce185a5e18485e185a5e186ab, 0x01e1848ce185a5e18485e185a5e18782e18480e185a6,
   0x01e1848ce185a5e18487e185a5e186ab, 0x01e1848ce185a5e1848be185aee186af, 0x01e1848ce185a5e1848ce185a5e186afe18485e185a9, 0x01e1848ce185a5e1848ee185aee186a8]

/-- Entries 1472 to 1535 of `korean` (include/cardano/bip39_dictionary.hpp:14567-17666): 적극 … 제발 -/
def korean23 : List Nat :=
  [0x01e1848ce185a5e186a8e18480e185b3e186a8, 0x01e1848ce185a5e186a8e18483e185a1e186bce18492e185b5, 0x01e1848ce185a5e186a8e18489e185a5e186bc, 0x01e1848ce185a5e186a8e1848be185ade186bc,
   0x01e1848ce185a5e186a8e1848be185b3e186bc, 0x01e1848ce185a5e186abe18480e185a2, 0x01e1848ce185a5e186abe18480e185a9e186bc, 0x01e1848ce185a5e186abe18480e185b5,
   0x01e1848ce185a5e186abe18483e185a1e186af, 0x01e1848ce185a5e186abe18485e185a1e18483e185a9, 0x01e1848ce185a5e186abe18486e185a1e186bc, 0x01e1848ce185a5e186abe18486e185aee186ab,
   0x01e1848ce185a5e186abe18487e185a1e186ab, 0x01e1848ce185a5e186abe18487e185ae, 0x01e1848ce185a5e186abe18489e185a6, 0x01e1848ce185a5e186abe18489e185b5,
   0x01e1848ce185a5e186abe1848be185ade186bc, 0x01e1848ce185a5e186abe1848ce185a1, 0x01e1848ce185a5e186abe1848ce185a2e186bc, 0x01e1848ce185a5e186abe1848ce185ae,
   0x01e1848ce185a5e186abe1848ee185a5e186af, 0x01e1848ce185a5e186abe1848ee185a6, 0x01e1848ce185a5e186abe18490e185a9e186bc, 0x01e1848ce185a5e186abe18492e185a7,
   0x01e1848ce185a5e186abe18492e185ae, 0x01e1848ce185a5e186afe18483e185a2, 0x01e1848ce185a5e186afe18486e185a1e186bc, 0x01e1848ce185a5e186afe18487e185a1e186ab,
   0x01e1848ce185a5e186afe1848be185a3e186a8, 0x01e1848ce185a5e186afe1848ee185a1, 0x01e1848ce185a5e186b7e18480e185a5e186b7, 0x01e1848ce185a5e186b7e18489e185ae,
   0x01e1848ce185a5e186b7e18489e185b5e186b7, 0x01e1848ce185a5e186b7e1848be185afe186ab, 0x01e1848ce185a5e186b7e1848ce185a5e186b7, 0x01e1848ce185a5e186b7e1848ee185a1,
   0x01e1848ce185a5e186b8e18480e185b3e186ab, 0x01e1848ce185a5e186b8e18489e185b5, 0x01e1848ce185a5e186b8e1848ee185a9e186a8, 0x01e1848ce185a5e186bae18480e185a1e18485e185a1e186a8,
   0x01e1848ce185a5e186bce18480e185a5e1848ce185a1e186bc, 0x01e1848ce185a5e186bce18483e185a9, 0x01e1848ce185a5e186bce18485e185b2e1848ce185a1e186bc, 0x01e1848ce185a5e186bce18485e185b5,
   0x01e1848ce185a5e186bce18486e185a1e186af, 0x01e1848ce185a5e186bce18486e185a7e186ab, 0x01e1848ce185a5e186bce18486e185aee186ab, 0x01e1848ce185a5e186bce18487e185a1e186abe18483e185a2,
   0x01e1848ce185a5e186bce18487e185a9, 0x01e1848ce185a5e186bce18487e185ae, 0x01e1848ce185a5e186bce18487e185b5, 0x01e1848ce185a5e186bce18489e185a1e186bc,
   0x01e1848ce185a5e186bce18489e185a5e186bc, 0x01e1848ce185a5e186bce1848be185a9, 0x01e1848ce185a5e186bce1848be185afe186ab, 0x01e1848ce185a5e186bce1848ce185a1e186bc,
   0x01e1848ce185a5e186bce1848ce185b5, 0x01e1848ce185a5e186bce1848ee185b5, 0x01e1848ce185a5e186bce18492e185aae186a8e18492e185b5, 0x01e1848ce185a6e18480e185a9e186bc,
   0x01e1848ce185a6e18480e185aae1848ce185a5e186b7, 0x01e1848ce185a6e18483e185a2e18485e185a9, 0x01e1848ce185a6e18486e185a9e186a8, 0x01e1848ce185a6e18487e185a1e186af]

/-- Entries 1536 to 1599 of `korean` (include/cardano/bip39_dictionary.hpp:14567-17666): 제법 … 중순 -/
def korean24 : List Nat :=
  [0x01e1848ce185a6e18487e185a5e186b8, 0x01e1848ce185a6e18489e185a1e186bae18482e185a1e186af, 0x01e1848ce185a6e1848be185a1e186ab, 0x01e1848ce185a6e1848be185b5e186af,
   0x01e1848ce185a6e1848ce185a1e186a8, 0x01e1848ce185a6e1848ce185aee18483e185a9, 0x01e1848ce185a6e1848ee185aee186af, 0x01e1848ce185a6e18491e185aee186b7,
   0x01e1848ce185a6e18492e185a1e186ab, 0x01e1848ce185a9e18480e185a1e186a8, 0x01e1848ce185a9e18480e185a5e186ab, 0x01e1848ce185a9e18480e185b3e186b7,
   0x01e1848ce185a9e18480e185b5e186bc, 0x01e1848ce185a9e18486e185a7e186bc, 0x01e1848ce185a9e18486e185b5e18485e185ad, 0x01e1848ce185a9e18489e185a1e186bc,
   0x01e1848ce185a9e18489e185a5e186ab, 0x01e1848ce185a9e1848be185ade186bce18492e185b5, 0x01e1848ce185a9e1848ce185a5e186af, 0x01e1848ce185a9e1848ce185a5e186bc,
   0x01e1848ce185a9e1848ce185b5e186a8, 0x01e1848ce185a9e186abe18483e185a2e186bae18486e185a1e186af, 0x01e1848ce185a9e186abe1848ce185a2, 0x01e1848ce185a9e186afe1848be185a5e186b8,
   0x01e1848ce185a9e186afe1848be185b3e186b7, 0x01e1848ce185a9e186bce18480e185ad, 0x01e1848ce185a9e186bce18485e185a9, 0x01e1848ce185a9e186bce18485e185b2,
   0x01e1848ce185a9e186bce18489e185a9e18485e185b5, 0x01e1848ce185a9e186bce1848be185a5e186b8e1848be185afe186ab, 0x01e1848ce185a9e186bce1848ce185a9e186bc, 0x01e1848ce185a9e186bce18492e185a1e186b8,
   0x01e1848ce185aae18489e185a5e186a8, 0x01e1848ce185ace1848be185b5e186ab, 0x01e1848ce185aee18480e185aae186abe1848ce185a5e186a8, 0x01e1848ce185aee18485e185b3e186b7,
   0x01e1848ce185aee18486e185a1e186af, 0x01e1848ce185aee18486e185a5e18482e185b5, 0x01e1848ce185aee18486e185a5e186a8, 0x01e1848ce185aee18486e185aee186ab,
   0x01e1848ce185aee18486e185b5e186ab, 0x01e1848ce185aee18487e185a1e186bc, 0x01e1848ce185aee18487e185a7e186ab, 0x01e1848ce185aee18489e185b5e186a8,
   0x01e1848ce185aee1848be185b5e186ab, 0x01e1848ce185aee1848be185b5e186af, 0x01e1848ce185aee1848ce185a1e186bc, 0x01e1848ce185aee1848ce185a5e186abe1848ce185a1,
   0x01e1848ce185aee18490e185a2e186a8, 0x01e1848ce185aee186abe18487e185b5, 0x01e1848ce185aee186afe18480e185a5e18485e185b5, 0x01e1848ce185aee186afe18480e185b5,
   0x01e1848ce185aee186afe18486e185aee18482e185b4, 0x01e1848ce185aee186bce18480e185a1e186ab, 0x01e1848ce185aee186bce18480e185a8e18487e185a1e186bce18489e185a9e186bc, 0x01e1848ce185aee186bce18480e185aee186a8,
   0x01e1848ce185aee186bce18482e185a7e186ab, 0x01e1848ce185aee186bce18483e185a1e186ab, 0x01e1848ce185aee186bce18483e185a9e186a8, 0x01e1848ce185aee186bce18487e185a1e186ab,
   0x01e1848ce185aee186bce18487e185ae, 0x01e1848ce185aee186bce18489e185a6, 0x01e1848ce185aee186bce18489e185a9e18480e185b5e1848be185a5e186b8, 0x01e1848ce185aee186bce18489e185aee186ab]

/-- Entries 1600 to 1663 of `korean` (include/cardano/bip39_dictionary.hpp:14567-17666): 중앙 … 참가 -/
def korean25 : List Nat :=
  [0x01e1848ce185aee186bce1848be185a1e186bc, 0x01e1848ce185aee186bce1848be185ad, 0x01e1848ce185aee186bce18492e185a1e186a8e18480e185ad, 0x01e1848ce185b3e186a8e18489e185a5e186a8,
   0x01e1848ce185b3e186a8e18489e185b5, 0x01e1848ce185b3e186afe18480e185a5e1848be185aee186b7, 0x01e1848ce185b3e186bce18480e185a1, 0x01e1848ce185b3e186bce18480e185a5,
   0x01e1848ce185b3e186bce18480e185afe186ab, 0x01e1848ce185b3e186bce18489e185a1e186bc, 0x01e1848ce185b3e186bce18489e185a6, 0x01e1848ce185b5e18480e185a1e186a8,
   0x01e1848ce185b5e18480e185a1e186b8, 0x01e1848ce185b5e18480e185a7e186bc, 0x01e1848ce185b5e18480e185b3e186a8e18492e185b5, 0x01e1848ce185b5e18480e185b3e186b7,
   0x01e1848ce185b5e18480e185b3e186b8, 0x01e1848ce185b5e18482e185b3e186bc, 0x01e1848ce185b5e18485e185b3e186b7e18480e185b5e186af, 0x01e1848ce185b5e18485e185b5e18489e185a1e186ab,
   0x01e1848ce185b5e18487e185a1e186bc, 0x01e1848ce185b5e18487e185aee186bc, 0x01e1848ce185b5e18489e185b5e186a8, 0x01e1848ce185b5e1848be185a7e186a8,
   0x01e1848ce185b5e1848be185aee18480e185a2, 0x01e1848ce185b5e1848be185afe186ab, 0x01e1848ce185b5e1848ce185a5e186a8, 0x01e1848ce185b5e1848ce185a5e186b7,
   0x01e1848ce185b5e1848ce185b5e186ab, 0x01e1848ce185b5e1848ee185aee186af, 0x01e1848ce185b5e186a8e18489e185a5e186ab, 0x01e1848ce185b5e186a8e1848be185a5e186b8,
   0x01e1848ce185b5e186a8e1848be185afe186ab, 0x01e1848ce185b5e186a8e1848ce185a1e186bc, 0x01e1848ce185b5e186abe18480e185b3e186b8, 0x01e1848ce185b5e186abe18483e185a9e186bc,
   0x01e1848ce185b5e186abe18485e185a9, 0x01e1848ce185b5e186abe18485e185ad, 0x01e1848ce185b5e186abe18485e185b5, 0x01e1848ce185b5e186abe1848de185a1,
   0x01e1848ce185b5e186abe1848ee185a1e186af, 0x01e1848ce185b5e186abe1848ee185aee186af, 0x01e1848ce185b5e186abe18490e185a9e186bc, 0x01e1848ce185b5e186abe18492e185a2e186bc,
   0x01e1848ce185b5e186afe18486e185aee186ab, 0x01e1848ce185b5e186afe18487e185a7e186bc, 0x01e1848ce185b5e186afe18489e185a5, 0x01e1848ce185b5e186b7e1848ce185a1e186a8,
   0x01e1848ce185b5e186b8e18483e185a1e186ab, 0x01e1848ce185b5e186b8e1848be185a1e186ab, 0x01e1848ce185b5e186b8e1848ce185aee186bc, 0x01e1848de185a1e1848ce185b3e186bc,
   0x01e1848de185b5e18481e185a5e18480e185b5, 0x01e1848ee185a1e18482e185a1e186b7, 0x01e1848ee185a1e18485e185a1e18485e185b5, 0x01e1848ee185a1e18485e185a3e186bc,
   0x01e1848ee185a1e18485e185b5e186b7, 0x01e1848ee185a1e18487e185a7e186af, 0x01e1848ee185a1e18489e185a5e186ab, 0x01e1848ee185a1e1848ee185b3e186b7,
   0x01e1848ee185a1e186a8e18480e185a1e186a8, 0x01e1848ee185a1e186abe18486e185aee186af, 0x01e1848ee185a1e186abe18489e185a5e186bc, 0x01e1848ee185a1e186b7e18480e185a1]

/-- Entries 1664 to 1727 of `korean` (include/cardano/bip39_dictionary.hpp:14567-17666): 참기름 … 최악 -/
def korean26 : List Nat :=
  [0x01e1848ee185a1e186b7e18480e185b5e18485e185b3e186b7, 0x01e1848ee185a1e186b7e18489e185a2, 0x01e1848ee185a1e186b7e18489e185a5e186a8, 0x01e1848ee185a1e186b7e1848be185a7,
   0x01e1848ee185a1e186b7e1848be185ac, 0x01e1848ee185a1e186b7e1848ce185a9, 0x01e1848ee185a1e186bae1848ce185a1e186ab, 0x01e1848ee185a1e186bce18480e185a1,
   0x01e1848ee185a1e186bce18480e185a9, 0x01e1848ee185a1e186bce18480e185ae, 0x01e1848ee185a1e186bce18486e185aee186ab, 0x01e1848ee185a1e186bce18487e185a1e186a9,
   0x01e1848ee185a1e186bce1848ce185a1e186a8, 0x01e1848ee185a1e186bce1848ce185a9, 0x01e1848ee185a2e18482e185a5e186af, 0x01e1848ee185a2e1848ce185a5e186b7,
   0x01e1848ee185a2e186a8e18480e185a1e18487e185a1e186bc, 0x01e1848ee185a2e186a8e18487e185a1e186bc, 0x01e1848ee185a2e186a8e18489e185a1e186bc, 0x01e1848ee185a2e186a8e1848be185b5e186b7,
   0x01e1848ee185a2e186b7e18491e185b5e1848be185a5e186ab, 0x01e1848ee185a5e18487e185a5e186af, 0x01e1848ee185a5e1848be185b3e186b7, 0x01e1848ee185a5e186abe18480e185aee186a8,
   0x01e1848ee185a5e186abe18483e185aee186bc, 0x01e1848ee185a5e186abe1848ce185a1e186bc, 0x01e1848ee185a5e186abe1848ce185a2, 0x01e1848ee185a5e186abe1848ee185a5e186abe18492e185b5,
   0x01e1848ee185a5e186afe18483e185a9, 0x01e1848ee185a5e186afe1848ce185a5e18492e185b5, 0x01e1848ee185a5e186afe18492e185a1e186a8, 0x01e1848ee185a5e186bae18482e185a1e186af,
   0x01e1848ee185a5e186bae1848de185a2, 0x01e1848ee185a5e186bce18482e185a7e186ab, 0x01e1848ee185a5e186bce18487e185a1e1848ce185b5, 0x01e1848ee185a5e186bce18489e185a9,
   0x01e1848ee185a5e186bce1848ee185aee186ab, 0x01e1848ee185a6e18480e185a8, 0x01e1848ee185a6e18485e185a7e186a8, 0x01e1848ee185a6e1848be185a9e186ab,
   0x01e1848ee185a6e1848be185b2e186a8, 0x01e1848ee185a6e1848ce185aee186bc, 0x01e1848ee185a6e18492e185a5e186b7, 0x01e1848ee185a9e18483e185b3e186bce18492e185a1e186a8e18489e185a2e186bc,
   0x01e1848ee185a9e18487e185a1e186ab, 0x01e1848ee185a9e18487e185a1e186b8, 0x01e1848ee185a9e18489e185a1e186bce18492e185aa, 0x01e1848ee185a9e18489e185aee186ab,
   0x01e1848ee185a9e1848be185a7e18485e185b3e186b7, 0x01e1848ee185a9e1848be185afe186ab, 0x01e1848ee185a9e1848ce185a5e18482e185a7e186a8, 0x01e1848ee185a9e1848ce185a5e186b7,
   0x01e1848ee185a9e1848ee185a5e186bc, 0x01e1848ee185a9e1848fe185a9e186afe18485e185b5e186ba, 0x01e1848ee185a9e186bae18487e185aee186af, 0x01e1848ee185a9e186bce18480e185a1e186a8,
   0x01e1848ee185a9e186bce18485e185b5, 0x01e1848ee185a9e186bce1848ce185a1e186bc, 0x01e1848ee185aae186afe1848be185a7e186bc, 0x01e1848ee185ace18480e185b3e186ab,
   0x01e1848ee185ace18489e185a1e186bc, 0x01e1848ee185ace18489e185a5e186ab, 0x01e1848ee185ace18489e185b5e186ab, 0x01e1848ee185ace1848be185a1e186a8]

/-- Entries 1728 to 1791 of `korean` (include/cardano/bip39_dictionary.hpp:14567-17666): 최종 … 클래식 -/
def korean27 : List Nat :=
  [0x01e1848ee185ace1848ce185a9e186bc, 0x01e1848ee185aee18489e185a5e186a8, 0x01e1848ee185aee1848be185a5e186a8, 0x01e1848ee185aee1848ce185b5e186ab,
   0x01e1848ee185aee1848ee185a5e186ab, 0x01e1848ee185aee1848ee185b3e186a8, 0x01e1848ee185aee186a8e18480e185ae, 0x01e1848ee185aee186a8e18489e185a9,
   0x01e1848ee185aee186a8e1848ce185a6, 0x01e1848ee185aee186a8e18492e185a1, 0x01e1848ee185aee186afe18480e185b3e186ab, 0x01e1848ee185aee186afe18487e185a1e186af,
   0x01e1848ee185aee186afe18489e185a1e186ab, 0x01e1848ee185aee186afe18489e185b5e186ab, 0x01e1848ee185aee186afe1848be185a7e186ab, 0x01e1848ee185aee186afe1848be185b5e186b8,
   0x01e1848ee185aee186afe1848ce185a1e186bc, 0x01e1848ee185aee186afe18491e185a1e186ab, 0x01e1848ee185aee186bce18480e185a7e186a8, 0x01e1848ee185aee186bce18480e185a9,
   0x01e1848ee185aee186bce18483e185a9e186af, 0x01e1848ee185aee186bce18487e185aee186abe18492e185b5, 0x01e1848ee185aee186bce1848ee185a5e186bce18483e185a9, 0x01e1848ee185b1e1848be185a5e186b8,
   0x01e1848ee185b1e1848ce185b5e186a8, 0x01e1848ee185b1e18492e185a3e186bc, 0x01e1848ee185b5e1848be185a3e186a8, 0x01e1848ee185b5e186abe18480e185ae,
   0x01e1848ee185b5e186abe1848ee185a5e186a8, 0x01e1848ee185b5e186afe18489e185b5e186b8, 0x01e1848ee185b5e186afe1848be185afe186af, 0x01e1848ee185b5e186afe18491e185a1e186ab,
   0x01e1848ee185b5e186b7e18483e185a2, 0x01e1848ee185b5e186b7e18486e185aee186a8, 0x01e1848ee185b5e186b7e18489e185b5e186af, 0x01e1848ee185b5e186bae18489e185a9e186af,
   0x01e1848ee185b5e186bce1848ee185a1e186ab, 0x01e1848fe185a1e18486e185a6e18485e185a1, 0x01e1848fe185a1e1848be185aee186abe18490e185a5, 0x01e1848fe185a1e186afe18480e185aee186a8e18489e185ae,
   0x01e1848fe185a2e18485e185b5e186a8e18490e185a5, 0x01e1848fe185a2e186b7e18491e185a5e18489e185b3, 0x01e1848fe185a2e186b7e18491e185a6e1848be185b5e186ab, 0x01e1848fe185a5e18490e185b3e186ab,
   0x01e1848fe185a5e186abe18483e185b5e18489e185a7e186ab, 0x01e1848fe185a5e186afe18485e185a5, 0x01e1848fe185a5e186b7e18491e185b2e18490e185a5, 0x01e1848fe185a9e18481e185b5e18485e185b5,
   0x01e1848fe185a9e18486e185b5e18483e185b5, 0x01e1848fe185a9e186abe18489e185a5e18490e185b3, 0x01e1848fe185a9e186afe18485e185a1, 0x01e1848fe185a9e186b7e18491e185b3e186afe18485e185a6e186a8e18489e185b3,
   0x01e1848fe185a9e186bce18482e185a1e18486e185aee186af, 0x01e1848fe185abe18480e185a1e186b7, 0x01e1848fe185aee18483e185a6e18490e185a1, 0x01e1848fe185b3e18485e185b5e186b7,
   0x01e1848fe185b3e186abe18480e185b5e186af, 0x01e1848fe185b3e186abe18484e185a1e186af, 0x01e1848fe185b3e186abe18489e185a9e18485e185b5, 0x01e1848fe185b3e186abe1848be185a1e18483e185b3e186af,
   0x01e1848fe185b3e186abe1848be185a5e18486e185a5e18482e185b5, 0x01e1848fe185b3e186abe1848be185b5e186af, 0x01e1848fe185b3e186abe1848ce185a5e186af, 0x01e1848fe185b3e186afe18485e185a2e18489e185b5e186a8]

/-- Entries 1792 to 1855 of `korean` (include/cardano/bip39_dictionary.hpp:14567-17666): 클럽 … 편지 -/
def korean28 : List Nat :=
  [0x01e1848fe185b3e186afe18485e185a5e186b8, 0x01e1848fe185b5e186afe18485e185a9, 0x01e18490e185a1e1848be185b5e186b8, 0x01e18490e185a1e1848ce185a1e18480e185b5,
   0x01e18490e185a1e186a8e18480e185ae, 0x01e18490e185a1e186a8e1848ce185a1, 0x01e18490e185a1e186abe18489e185a2e186bc, 0x01e18490e185a2e18480e185afe186abe18483e185a9,
   0x01e18490e185a2e1848be185a3e186bc, 0x01e18490e185a2e18491e185aee186bc, 0x01e18490e185a2e186a8e18489e185b5, 0x01e18490e185a2e186afe18485e185a5e186abe18490e185b3,
   0x01e18490e185a5e18482e185a5e186af, 0x01e18490e185a5e18486e185b5e18482e185a5e186af, 0x01e18490e185a6e18482e185b5e18489e185b3, 0x01e18490e185a6e18489e185b3e18490e185b3,
   0x01e18490e185a6e1848be185b5e18487e185b3e186af, 0x01e18490e185a6e186afe18485e185a6e18487e185b5e1848ce185a5e186ab, 0x01e18490e185a9e18485e185a9e186ab, 0x01e18490e185a9e18486e185a1e18490e185a9,
   0x01e18490e185a9e1848be185ade1848be185b5e186af, 0x01e18490e185a9e186bce18480e185a8, 0x01e18490e185a9e186bce18480e185aa, 0x01e18490e185a9e186bce18485e185a9,
   0x01e18490e185a9e186bce18489e185b5e186ab, 0x01e18490e185a9e186bce1848be185a7e186a8, 0x01e18490e185a9e186bce1848be185b5e186af, 0x01e18490e185a9e186bce1848ce185a1e186bc,
   0x01e18490e185a9e186bce1848ce185a6, 0x01e18490e185a9e186bce1848ce185b3e186bc, 0x01e18490e185a9e186bce18492e185a1e186b8, 0x01e18490e185a9e186bce18492e185aa,
   0x01e18490e185ace18480e185b3e186ab, 0x01e18490e185ace1848be185afe186ab, 0x01e18490e185ace1848ce185b5e186a8e18480e185b3e186b7, 0x01e18490e185b1e18480e185b5e186b7,
   0x01e18490e185b3e18485e185a5e186a8, 0x01e18490e185b3e186a8e18480e185b3e186b8, 0x01e18490e185b3e186a8e18487e185a7e186af, 0x01e18490e185b3e186a8e18489e185a5e186bc,
   0x01e18490e185b3e186a8e18489e185ae, 0x01e18490e185b3e186a8e1848ce185b5e186bc, 0x01e18490e185b3e186a8e18492e185b5, 0x01e18490e185b3e186abe18490e185b3e186abe18492e185b5,
   0x01e18490e185b5e18489e185a7e1848ee185b3, 0x01e18491e185a1e18485e185a1e186abe18489e185a2e186a8, 0x01e18491e185a1e1848be185b5e186af, 0x01e18491e185a1e1848ee185aee186afe18489e185a9,
   0x01e18491e185a1e186abe18480e185a7e186af, 0x01e18491e185a1e186abe18483e185a1e186ab, 0x01e18491e185a1e186abe18486e185a2, 0x01e18491e185a1e186abe18489e185a1,
   0x01e18491e185a1e186afe18489e185b5e186b8, 0x01e18491e185a1e186afe1848be185afe186af, 0x01e18491e185a1e186b8e18489e185a9e186bc, 0x01e18491e185a2e18489e185a7e186ab,
   0x01e18491e185a2e186a8e18489e185b3, 0x01e18491e185a2e186a8e18489e185b5e18486e185b5e186afe18485e185b5, 0x01e18491e185a2e186abe18490e185b5, 0x01e18491e185a5e18489e185a6e186abe18490e185b3,
   0x01e18491e185a6e1848be185b5e186abe18490e185b3, 0x01e18491e185a7e186abe18480e185a7e186ab, 0x01e18491e185a7e186abe1848be185b4, 0x01e18491e185a7e186abe1848ce185b5]

/-- Entries 1856 to 1919 of `korean` (include/cardano/bip39_dictionary.hpp:14567-17666): 편히 … 한글 -/
def korean29 : List Nat :=
  [0x01e18491e185a7e186abe18492e185b5, 0x01e18491e185a7e186bce18480e185a1, 0x01e18491e185a7e186bce18480e185b2e186ab, 0x01e18491e185a7e186bce18489e185a2e186bc,
   0x01e18491e185a7e186bce18489e185a9, 0x01e18491e185a7e186bce1848be185a3e186bc, 0x01e18491e185a7e186bce1848be185b5e186af, 0x01e18491e185a7e186bce18492e185aa,
   0x01e18491e185a9e18489e185b3e18490e185a5, 0x01e18491e185a9e1848be185b5e186abe18490e185b3, 0x01e18491e185a9e1848ce185a1e186bc, 0x01e18491e185a9e18492e185a1e186b7,
   0x01e18491e185ade18486e185a7e186ab, 0x01e18491e185ade1848ce185a5e186bc, 0x01e18491e185ade1848ce185aee186ab, 0x01e18491e185ade18492e185a7e186ab,
   0x01e18491e185aee186b7e18486e185a9e186a8, 0x01e18491e185aee186b7e1848ce185b5e186af, 0x01e18491e185aee186bce18480e185a7e186bc, 0x01e18491e185aee186bce18489e185a9e186a8,
   0x01e18491e185aee186bce18489e185b3e186b8, 0x01e18491e185b3e18485e185a1e186bce18489e185b3, 0x01e18491e185b3e18485e185b5e186abe18490e185a5, 0x01e18491e185b3e186afe18485e185a1e18489e185b3e18490e185b5e186a8,
   0x01e18491e185b5e18480e185a9e186ab, 0x01e18491e185b5e18486e185a1e186bc, 0x01e18491e185b5e1848be185a1e18482e185a9, 0x01e18491e185b5e186afe18485e185b3e186b7,
   0x01e18491e185b5e186afe18489e185ae, 0x01e18491e185b5e186afe1848be185ad, 0x01e18491e185b5e186afe1848ce185a1, 0x01e18491e185b5e186afe18490e185a9e186bc,
   0x01e18491e185b5e186bce18480e185a8, 0x01e18492e185a1e18482e185b3e18482e185b5e186b7, 0x01e18492e185a1e18482e185b3e186af, 0x01e18492e185a1e18483e185b3e1848be185b0e1848be185a5,
   0x01e18492e185a1e18485e185aee186bae18487e185a1e186b7, 0x01e18492e185a1e18487e185a1e186abe18480e185b5, 0x01e18492e185a1e18489e185aee186a8e1848ce185b5e186b8, 0x01e18492e185a1e18489e185aee186ab,
   0x01e18492e185a1e1848be185a7e18490e185b3e186ab, 0x01e18492e185a1e1848ce185b5e18486e185a1e186ab, 0x01e18492e185a1e1848ee185a5e186ab, 0x01e18492e185a1e18491e185aee186b7,
   0x01e18492e185a1e18491e185b5e186af, 0x01e18492e185a1e186a8e18480e185aa, 0x01e18492e185a1e186a8e18480e185ad, 0x01e18492e185a1e186a8e18480e185b3e186b8,
   0x01e18492e185a1e186a8e18480e185b5, 0x01e18492e185a1e186a8e18482e185a7e186ab, 0x01e18492e185a1e186a8e18485e185a7e186a8, 0x01e18492e185a1e186a8e18487e185a5e186ab,
   0x01e18492e185a1e186a8e18487e185aee18486e185a9, 0x01e18492e185a1e186a8e18487e185b5, 0x01e18492e185a1e186a8e18489e185a2e186bc, 0x01e18492e185a1e186a8e18489e185aee186af,
   0x01e18492e185a1e186a8e18489e185b3e186b8, 0x01e18492e185a1e186a8e1848be185ade186bce18491e185aee186b7, 0x01e18492e185a1e186a8e1848be185afe186ab, 0x01e18492e185a1e186a8e1848be185b1,
   0x01e18492e185a1e186a8e1848ce185a1, 0x01e18492e185a1e186a8e1848ce185a5e186b7, 0x01e18492e185a1e186abe18480e185a8, 0x01e18492e185a1e186abe18480e185b3e186af]

/-- Entries 1920 to 1983 of `korean` (include/cardano/bip39_dictionary.hpp:14567-17666): 한꺼번에 … 형제 -/
def korean30 : List Nat :=
  [0x01e18492e185a1e186abe18481e185a5e18487e185a5e186abe1848be185a6, 0x01e18492e185a1e186abe18482e185a1e186bd, 0x01e18492e185a1e186abe18482e185aee186ab, 0x01e18492e185a1e186abe18483e185a9e186bce1848be185a1e186ab,
   0x01e18492e185a1e186abe18484e185a2, 0x01e18492e185a1e186abe18485e185a1e18489e185a1e186ab, 0x01e18492e185a1e186abe18486e185a1e18483e185b5, 0x01e18492e185a1e186abe18486e185aee186ab,
   0x01e18492e185a1e186abe18487e185a5e186ab, 0x01e18492e185a1e186abe18487e185a9e186a8, 0x01e18492e185a1e186abe18489e185b5e186a8, 0x01e18492e185a1e186abe1848be185a7e18485e185b3e186b7,
   0x01e18492e185a1e186abe1848de185a9e186a8, 0x01e18492e185a1e186afe18486e185a5e18482e185b5, 0x01e18492e185a1e186afe1848be185a1e18487e185a5e1848ce185b5, 0x01e18492e185a1e186afe1848be185b5e186ab,
   0x01e18492e185a1e186b7e18481e185a6, 0x01e18492e185a1e186b7e18487e185aee18485e185a9, 0x01e18492e185a1e186b8e18480e185a7e186a8, 0x01e18492e185a1e186b8e18485e185b5e1848ce185a5e186a8,
   0x01e18492e185a1e186bce18480e185a9e186bc, 0x01e18492e185a1e186bce18480e185ae, 0x01e18492e185a1e186bce18489e185a1e186bc, 0x01e18492e185a1e186bce1848be185b4,
   0x01e18492e185a2e18480e185a7e186af, 0x01e18492e185a2e18480e185aee186ab, 0x01e18492e185a2e18483e185a1e186b8, 0x01e18492e185a2e18483e185a1e186bc,
   0x01e18492e185a2e18486e185aee186af, 0x01e18492e185a2e18489e185a5e186a8, 0x01e18492e185a2e18489e185a5e186af, 0x01e18492e185a2e18489e185aee1848be185ade186a8e1848ce185a1e186bc,
   0x01e18492e185a2e1848be185a1e186ab, 0x01e18492e185a2e186a8e18489e185b5e186b7, 0x01e18492e185a2e186abe18483e185b3e18487e185a2e186a8, 0x01e18492e185a2e186b7e18487e185a5e18480e185a5,
   0x01e18492e185a2e186bae18487e185a7e18780, 0x01e18492e185a2e186bae18489e185a1e186af, 0x01e18492e185a2e186bce18483e185a9e186bc, 0x01e18492e185a2e186bce18487e185a9e186a8,
   0x01e18492e185a2e186bce18489e185a1, 0x01e18492e185a2e186bce1848be185aee186ab, 0x01e18492e185a2e186bce1848be185b1, 0x01e18492e185a3e186bce18480e185b5,
   0x01e18492e185a3e186bce18489e185a1e186bc, 0x01e18492e185a3e186bce18489e185ae, 0x01e18492e185a5e18485e185a1e186a8, 0x01e18492e185a5e1848be185ade186bc,
   0x01e18492e185a6e186afe18480e185b5, 0x01e18492e185a7e186abe18480e185aae186ab, 0x01e18492e185a7e186abe18480e185b3e186b7, 0x01e18492e185a7e186abe18483e185a2,
   0x01e18492e185a7e186abe18489e185a1e186bc, 0x01e18492e185a7e186abe18489e185b5e186af, 0x01e18492e185a7e186abe1848ce185a1e186bc, 0x01e18492e185a7e186abe1848ce185a2,
   0x01e18492e185a7e186abe1848ce185b5, 0x01e18492e185a7e186afe1848be185a2e186a8, 0x01e18492e185a7e186b8e18485e185a7e186a8, 0x01e18492e185a7e186bce18487e185ae,
   0x01e18492e185a7e186bce18489e185a1, 0x01e18492e185a7e186bce18489e185ae, 0x01e18492e185a7e186bce18489e185b5e186a8, 0x01e18492e185a7e186bce1848ce185a6]

/-- Entries 1984 to 2047 of `korean` (include/cardano/bip39_dictionary.hpp:14567-17666): 형태 … 힘껏 -/
def korean31 : List Nat :=
  [0x01e18492e185a7e186bce18490e185a2, 0x01e18492e185a7e186bce18491e185a7e186ab, 0x01e18492e185a8e18490e185a2e186a8, 0x01e18492e185a9e18480e185b5e18489e185b5e186b7,
   0x01e18492e185a9e18482e185a1e186b7, 0x01e18492e185a9e18485e185a1e186bce1848be185b5, 0x01e18492e185a9e18487e185a1e186a8, 0x01e18492e185a9e18490e185a6e186af,
   0x01e18492e185a9e18492e185b3e186b8, 0x01e18492e185a9e186a8e18489e185b5, 0x01e18492e185a9e186afe18485e185a9, 0x01e18492e185a9e186b7e18491e185a6e1848be185b5e1848ce185b5,
   0x01e18492e185a9e186bce18487e185a9, 0x01e18492e185a9e186bce18489e185ae, 0x01e18492e185a9e186bce1848ee185a1, 0x01e18492e185aae18486e185a7e186ab,
   0x01e18492e185aae18487e185aee186ab, 0x01e18492e185aae18489e185a1e186af, 0x01e18492e185aae1848be185ade1848be185b5e186af, 0x01e18492e185aae1848ce185a1e186bc,
   0x01e18492e185aae18492e185a1e186a8, 0x01e18492e185aae186a8e18487e185a9, 0x01e18492e185aae186a8e1848be185b5e186ab, 0x01e18492e185aae186a8e1848ce185a1e186bc,
   0x01e18492e185aae186a8e1848ce185a5e186bc, 0x01e18492e185aae186abe18480e185a1e186b8, 0x01e18492e185aae186abe18480e185a7e186bc, 0x01e18492e185aae186abe1848be185a7e186bc,
   0x01e18492e185aae186abe1848be185b2e186af, 0x01e18492e185aae186abe1848ce185a1, 0x01e18492e185aae186afe18480e185b5, 0x01e18492e185aae186afe18483e185a9e186bc,
   0x01e18492e185aae186afe18487e185a1e186afe18492e185b5, 0x01e18492e185aae186afe1848be185ade186bc, 0x01e18492e185aae186afe1848de185a1e186a8, 0x01e18492e185ace18480e185a7e186ab,
   0x01e18492e185ace18480e185aae186ab, 0x01e18492e185ace18487e185a9e186a8, 0x01e18492e185ace18489e185a2e186a8, 0x01e18492e185ace1848be185afe186ab,
   0x01e18492e185ace1848ce185a1e186bc, 0x01e18492e185ace1848ce185a5e186ab, 0x01e18492e185ace186bae18489e185ae, 0x01e18492e185ace186bce18483e185a1e186abe18487e185a9e18483e185a9,
   0x01e18492e185ade1848be185b2e186afe1848ce185a5e186a8, 0x01e18492e185aee18487e185a1e186ab, 0x01e18492e185aee1848ee185aee186bae18480e185a1e18485e185ae, 0x01e18492e185aee186abe18485e185a7e186ab,
   0x01e18492e185afe186afe1848ae185b5e186ab, 0x01e18492e185b2e18489e185b5e186a8, 0x01e18492e185b2e1848be185b5e186af, 0x01e18492e185b2e186bce18482e185a2,
   0x01e18492e185b3e18485e185b3e186b7, 0x01e18492e185b3e186a8e18487e185a2e186a8, 0x01e18492e185b3e186a8e1848be185b5e186ab, 0x01e18492e185b3e186abe1848ce185a5e186a8,
   0x01e18492e185b3e186abe18492e185b5, 0x01e18492e185b3e186bce18486e185b5, 0x01e18492e185b3e186bce18487e185aee186ab, 0x01e18492e185b4e18480e185a9e186a8,
   0x01e18492e185b4e18486e185a1e186bc, 0x01e18492e185b4e18489e185a2e186bc, 0x01e18492e185b4e186abe18489e185a2e186a8, 0x01e18492e185b5e186b7e18481e185a5e186ba]

/-- The table `korean` (include/cardano/bip39_dictionary.hpp:14567-17666). -/
def korean : List Nat :=
  korean0 ++ (korean1 ++ (korean2 ++ (korean3 ++ (korean4 ++ (korean5 ++ (korean6 ++ (korean7 ++ (korean8 ++ (korean9 ++ (korean10 ++ (korean11 ++ (korean12 ++ (korean13 ++ (korean14 ++ (korean15 ++ (korean16 ++ (korean17 ++ (korean18 ++ (korean19 ++ (korean20 ++ (korean21 ++ (korean22 ++ (korean23 ++ (korean24 ++ (korean25 ++ (korean26 ++ (korean27 ++ (korean28 ++ (korean29 ++ (korean30 ++ (korean31)))))))))))))))))))))))))))))))

end Cardano.Bip39
