/-! Generated from include/cardano/bip39_dictionary.hpp:82-2130 (the table `chinese_simplified`).
Each word is written as one number: the byte 1 followed by the bytes of the word. -/

namespace Cardano.Bip39

/-- Entries 0 to 63 of `chinese_simplified` (include/cardano/bip39_dictionary.hpp:82-2130): 的 … 十 -/
def chineseSimplified0 : List Nat :=
  [0x01e79a84, 0x01e4b880, 0x01e698af, 0x01e59ca8,
   0x01e4b88d, 0x01e4ba86, 0x01e69c89, 0x01e5928c,
   0x01e4baba, 0x01e8bf99, 0x01e4b8ad, 0x01e5a4a7,
   0x01e4b8ba, 0x01e4b88a, 0x01e4b8aa, 0x01e59bbd,
   0x01e68891, 0x01e4bba5, 0x01e8a681, 0x01e4bb96,
   0x01e697b6, 0x01e69da5, 0x01e794a8, 0x01e4bbac,
   0x01e7949f, 0x01e588b0, 0x01e4bd9c, 0x01e59cb0,
   0x01e4ba8e, 0x01e587ba, 0x01e5b0b1, 0x01e58886,
   0x01e5afb9, 0x01e68890, 0x01e4bc9a, 0x01e58faf,
   0x01e4b8bb, 0x01e58f91, 0x01e5b9b4, 0x01e58aa8,
   0x01e5908c, 0x01e5b7a5, 0x01e4b99f, 0x01e883bd,
   0x01e4b88b, 0x01e8bf87, 0x01e5ad90, 0x01e8afb4,
   0x01e4baa7, 0x01e7a78d, 0x01e99da2, 0x01e8808c,
   0x01e696b9, 0x01e5908e, 0x01e5a49a, 0x01e5ae9a,
   0x01e8a18c, 0x01e5ada6, 0x01e6b395, 0x01e68980,
   0x01e6b091, 0x01e5be97, 0x01e7bb8f, 0x01e58d81]

/-- Entries 64 to 127 of `chinese_simplified` (include/cardano/bip39_dictionary.hpp:82-2130): 三 … 全 -/
def chineseSimplified1 : List Nat :=
  [0x01e4b889, 0x01e4b98b, 0x01e8bf9b, 0x01e79d80,
   0x01e7ad89, 0x01e983a8, 0x01e5baa6, 0x01e5aeb6,
   0x01e794b5, 0x01e58a9b, 0x01e9878c, 0x01e5a682,
   0x01e6b0b4, 0x01e58c96, 0x01e9ab98, 0x01e887aa,
   0x01e4ba8c, 0x01e79086, 0x01e8b5b7, 0x01e5b08f,
   0x01e789a9, 0x01e78eb0, 0x01e5ae9e, 0x01e58aa0,
   0x01e9878f, 0x01e983bd, 0x01e4b8a4, 0x01e4bd93,
   0x01e588b6, 0x01e69cba, 0x01e5bd93, 0x01e4bdbf,
   0x01e782b9, 0x01e4bb8e, 0x01e4b89a, 0x01e69cac,
   0x01e58ebb, 0x01e68a8a, 0x01e680a7, 0x01e5a5bd,
   0x01e5ba94, 0x01e5bc80, 0x01e5ae83, 0x01e59088,
   0x01e8bf98, 0x01e59ba0, 0x01e794b1, 0x01e585b6,
   0x01e4ba9b, 0x01e784b6, 0x01e5898d, 0x01e5a496,
   0x01e5a4a9, 0x01e694bf, 0x01e59b9b, 0x01e697a5,
   0x01e982a3, 0x01e7a4be, 0x01e4b989, 0x01e4ba8b,
   0x01e5b9b3, 0x01e5bda2, 0x01e79bb8, 0x01e585a8]

/-- Entries 128 to 191 of `chinese_simplified` (include/cardano/bip39_dictionary.hpp:82-2130): 表 … 料 -/
def chineseSimplified2 : List Nat :=
  [0x01e8a1a8, 0x01e997b4, 0x01e6a0b7, 0x01e4b88e,
   0x01e585b3, 0x01e59084, 0x01e9878d, 0x01e696b0,
   0x01e7babf, 0x01e58685, 0x01e695b0, 0x01e6ada3,
   0x01e5bf83, 0x01e58f8d, 0x01e4bda0, 0x01e6988e,
   0x01e79c8b, 0x01e58e9f, 0x01e58f88, 0x01e4b988,
   0x01e588a9, 0x01e6af94, 0x01e68896, 0x01e4bd86,
   0x01e8b4a8, 0x01e6b094, 0x01e7acac, 0x01e59091,
   0x01e98193, 0x01e591bd, 0x01e6ada4, 0x01e58f98,
   0x01e69da1, 0x01e58faa, 0x01e6b2a1, 0x01e7bb93,
   0x01e8a7a3, 0x01e997ae, 0x01e6848f, 0x01e5bbba,
   0x01e69c88, 0x01e585ac, 0x01e697a0, 0x01e7b3bb,
   0x01e5869b, 0x01e5be88, 0x01e68385, 0x01e88085,
   0x01e69c80, 0x01e7ab8b, 0x01e4bba3, 0x01e683b3,
   0x01e5b7b2, 0x01e9809a, 0x01e5b9b6, 0x01e68f90,
   0x01e79bb4, 0x01e9a298, 0x01e5859a, 0x01e7a88b,
   0x01e5b195, 0x01e4ba94, 0x01e69e9c, 0x01e69699]

/-- Entries 192 to 255 of `chinese_simplified` (include/cardano/bip39_dictionary.hpp:82-2130): 象 … 任 -/
def chineseSimplified3 : List Nat :=
  [0x01e8b1a1, 0x01e59198, 0x01e99da9, 0x01e4bd8d,
   0x01e585a5, 0x01e5b8b8, 0x01e69687, 0x01e680bb,
   0x01e6aca1, 0x01e59381, 0x01e5bc8f, 0x01e6b4bb,
   0x01e8aebe, 0x01e58f8a, 0x01e7aea1, 0x01e789b9,
   0x01e4bbb6, 0x01e995bf, 0x01e6b182, 0x01e88081,
   0x01e5a4b4, 0x01e59fba, 0x01e8b584, 0x01e8beb9,
   0x01e6b581, 0x01e8b7af, 0x01e7baa7, 0x01e5b091,
   0x01e59bbe, 0x01e5b1b1, 0x01e7bb9f, 0x01e68ea5,
   0x01e79fa5, 0x01e8be83, 0x01e5b086, 0x01e7bb84,
   0x01e8a781, 0x01e8aea1, 0x01e588ab, 0x01e5a5b9,
   0x01e6898b, 0x01e8a792, 0x01e69c9f, 0x01e6a0b9,
   0x01e8aeba, 0x01e8bf90, 0x01e5869c, 0x01e68c87,
   0x01e587a0, 0x01e4b99d, 0x01e58cba, 0x01e5bcba,
   0x01e694be, 0x01e586b3, 0x01e8a5bf, 0x01e8a2ab,
   0x01e5b9b2, 0x01e5819a, 0x01e5bf85, 0x01e68898,
   0x01e58588, 0x01e59b9e, 0x01e58899, 0x01e4bbbb]

/-- Entries 256 to 319 of `chinese_simplified` (include/cardano/bip39_dictionary.hpp:82-2130): 取 … 场 -/
def chineseSimplified4 : List Nat :=
  [0x01e58f96, 0x01e68dae, 0x01e5a484, 0x01e9989f,
   0x01e58d97, 0x01e7bb99, 0x01e889b2, 0x01e58589,
   0x01e997a8, 0x01e58db3, 0x01e4bf9d, 0x01e6b2bb,
   0x01e58c97, 0x01e980a0, 0x01e799be, 0x01e8a784,
   0x01e783ad, 0x01e9a286, 0x01e4b883, 0x01e6b5b7,
   0x01e58fa3, 0x01e4b89c, 0x01e5afbc, 0x01e599a8,
   0x01e58e8b, 0x01e5bf97, 0x01e4b896, 0x01e98791,
   0x01e5a29e, 0x01e4ba89, 0x01e6b58e, 0x01e998b6,
   0x01e6b2b9, 0x01e6809d, 0x01e69caf, 0x01e69e81,
   0x01e4baa4, 0x01e58f97, 0x01e88194, 0x01e4bb80,
   0x01e8aea4, 0x01e585ad, 0x01e585b1, 0x01e69d83,
   0x01e694b6, 0x01e8af81, 0x01e694b9, 0x01e6b885,
   0x01e7be8e, 0x01e5868d, 0x01e98787, 0x01e8bdac,
   0x01e69bb4, 0x01e58d95, 0x01e9a38e, 0x01e58887,
   0x01e68993, 0x01e799bd, 0x01e69599, 0x01e9809f,
   0x01e88ab1, 0x01e5b8a6, 0x01e5ae89, 0x01e59cba]

/-- Entries 320 to 383 of `chinese_simplified` (include/cardano/bip39_dictionary.hpp:82-2130): 身 … 算 -/
def chineseSimplified5 : List Nat :=
  [0x01e8baab, 0x01e8bda6, 0x01e4be8b, 0x01e79c9f,
   0x01e58aa1, 0x01e585b7, 0x01e4b887, 0x01e6af8f,
   0x01e79bae, 0x01e887b3, 0x01e8bebe, 0x01e8b5b0,
   0x01e7a7af, 0x01e7a4ba, 0x01e8aeae, 0x01e5a3b0,
   0x01e68aa5, 0x01e69697, 0x01e5ae8c, 0x01e7b1bb,
   0x01e585ab, 0x01e7a6bb, 0x01e58d8e, 0x01e5908d,
   0x01e7a1ae, 0x01e6898d, 0x01e7a791, 0x01e5bca0,
   0x01e4bfa1, 0x01e9a9ac, 0x01e88a82, 0x01e8af9d,
   0x01e7b1b3, 0x01e695b4, 0x01e7a9ba, 0x01e58583,
   0x01e586b5, 0x01e4bb8a, 0x01e99b86, 0x01e6b8a9,
   0x01e4bca0, 0x01e59c9f, 0x01e8aeb8, 0x01e6ada5,
   0x01e7bea4, 0x01e5b9bf, 0x01e79fb3, 0x01e8aeb0,
   0x01e99c80, 0x01e6aeb5, 0x01e7a094, 0x01e7958c,
   0x01e68b89, 0x01e69e97, 0x01e5be8b, 0x01e58fab,
   0x01e4b894, 0x01e7a9b6, 0x01e8a782, 0x01e8b68a,
   0x01e7bb87, 0x01e8a385, 0x01e5bdb1, 0x01e7ae97]

/-- Entries 384 to 447 of `chinese_simplified` (include/cardano/bip39_dictionary.hpp:82-2130): 低 … 写 -/
def chineseSimplified6 : List Nat :=
  [0x01e4bd8e, 0x01e68c81, 0x01e99fb3, 0x01e4bc97,
   0x01e4b9a6, 0x01e5b883, 0x01e5a48d, 0x01e5aeb9,
   0x01e584bf, 0x01e9a1bb, 0x01e99985, 0x01e59586,
   0x01e99d9e, 0x01e9aa8c, 0x01e8bf9e, 0x01e696ad,
   0x01e6b7b1, 0x01e99abe, 0x01e8bf91, 0x01e79fbf,
   0x01e58d83, 0x01e591a8, 0x01e5a794, 0x01e7b4a0,
   0x01e68a80, 0x01e5a487, 0x01e58d8a, 0x01e58a9e,
   0x01e99d92, 0x01e79c81, 0x01e58897, 0x01e4b9a0,
   0x01e5938d, 0x01e7baa6, 0x01e694af, 0x01e888ac,
   0x01e58fb2, 0x01e6849f, 0x01e58ab3, 0x01e4bebf,
   0x01e59ba2, 0x01e5be80, 0x01e985b8, 0x01e58e86,
   0x01e5b882, 0x01e5858b, 0x01e4bd95, 0x01e999a4,
   0x01e6b688, 0x01e69e84, 0x01e5ba9c, 0x01e7a7b0,
   0x01e5a4aa, 0x01e58786, 0x01e7b2be, 0x01e580bc,
   0x01e58fb7, 0x01e78e87, 0x01e6978f, 0x01e7bbb4,
   0x01e58892, 0x01e98089, 0x01e6a087, 0x01e58699]

/-- Entries 448 to 511 of `chinese_simplified` (include/cardano/bip39_dictionary.hpp:82-2130): 存 … 黄 -/
def chineseSimplified7 : List Nat :=
  [0x01e5ad98, 0x01e58099, 0x01e6af9b, 0x01e4bab2,
   0x01e5bfab, 0x01e69588, 0x01e696af, 0x01e999a2,
   0x01e69fa5, 0x01e6b19f, 0x01e59e8b, 0x01e79cbc,
   0x01e78e8b, 0x01e68c89, 0x01e6a0bc, 0x01e585bb,
   0x01e69893, 0x01e7bdae, 0x01e6b4be, 0x01e5b182,
   0x01e78987, 0x01e5a78b, 0x01e58db4, 0x01e4b893,
   0x01e78ab6, 0x01e882b2, 0x01e58e82, 0x01e4baac,
   0x01e8af86, 0x01e98082, 0x01e5b19e, 0x01e59c86,
   0x01e58c85, 0x01e781ab, 0x01e4bd8f, 0x01e8b083,
   0x01e6bba1, 0x01e58ebf, 0x01e5b180, 0x01e785a7,
   0x01e58f82, 0x01e7baa2, 0x01e7bb86, 0x01e5bc95,
   0x01e590ac, 0x01e8afa5, 0x01e99381, 0x01e4bbb7,
   0x01e4b8a5, 0x01e9a696, 0x01e5ba95, 0x01e6b6b2,
   0x01e5ae98, 0x01e5beb7, 0x01e99a8f, 0x01e79785,
   0x01e88b8f, 0x01e5a4b1, 0x01e5b094, 0x01e6adbb,
   0x01e8aeb2, 0x01e9858d, 0x01e5a5b3, 0x01e9bb84]

/-- Entries 512 to 575 of `chinese_simplified` (include/cardano/bip39_dictionary.hpp:82-2130): 推 … 章 -/
def chineseSimplified8 : List Nat :=
  [0x01e68ea8, 0x01e698be, 0x01e8b088, 0x01e7bdaa,
   0x01e7a59e, 0x01e889ba, 0x01e591a2, 0x01e5b8ad,
   0x01e590ab, 0x01e4bc81, 0x01e69c9b, 0x01e5af86,
   0x01e689b9, 0x01e890a5, 0x01e9a1b9, 0x01e998b2,
   0x01e4b8be, 0x01e79083, 0x01e88bb1, 0x01e6b0a7,
   0x01e58abf, 0x01e5918a, 0x01e69d8e, 0x01e58fb0,
   0x01e890bd, 0x01e69ca8, 0x01e5b8ae, 0x01e8bdae,
   0x01e7a0b4, 0x01e4ba9a, 0x01e5b888, 0x01e59bb4,
   0x01e6b3a8, 0x01e8bf9c, 0x01e5ad97, 0x01e69d90,
   0x01e68e92, 0x01e4be9b, 0x01e6b2b3, 0x01e68081,
   0x01e5b081, 0x01e58fa6, 0x01e696bd, 0x01e5878f,
   0x01e6a091, 0x01e6bab6, 0x01e6808e, 0x01e6ada2,
   0x01e6a188, 0x01e8a880, 0x01e5a3ab, 0x01e59d87,
   0x01e6ada6, 0x01e59bba, 0x01e58fb6, 0x01e9b1bc,
   0x01e6b3a2, 0x01e8a786, 0x01e4bb85, 0x01e8b4b9,
   0x01e7b4a7, 0x01e788b1, 0x01e5b7a6, 0x01e7aba0]

/-- Entries 576 to 639 of `chinese_simplified` (include/cardano/bip39_dictionary.hpp:82-2130): 早 … 互 -/
def chineseSimplified9 : List Nat :=
  [0x01e697a9, 0x01e69c9d, 0x01e5aeb3, 0x01e7bbad,
   0x01e8bdbb, 0x01e69c8d, 0x01e8af95, 0x01e9a39f,
   0x01e58585, 0x01e585b5, 0x01e6ba90, 0x01e588a4,
   0x01e68aa4, 0x01e58fb8, 0x01e8b6b3, 0x01e69f90,
   0x01e7bb83, 0x01e5b7ae, 0x01e887b4, 0x01e69dbf,
   0x01e794b0, 0x01e9998d, 0x01e9bb91, 0x01e78aaf,
   0x01e8b49f, 0x01e587bb, 0x01e88c83, 0x01e7bba7,
   0x01e585b4, 0x01e4bcbc, 0x01e4bd99, 0x01e59d9a,
   0x01e69bb2, 0x01e8be93, 0x01e4bfae, 0x01e69585,
   0x01e59f8e, 0x01e5a4ab, 0x01e5a49f, 0x01e98081,
   0x01e7ac94, 0x01e888b9, 0x01e58da0, 0x01e58fb3,
   0x01e8b4a2, 0x01e59083, 0x01e5af8c, 0x01e698a5,
   0x01e8818c, 0x01e8a789, 0x01e6b189, 0x01e794bb,
   0x01e58a9f, 0x01e5b7b4, 0x01e8b79f, 0x01e899bd,
   0x01e69d82, 0x01e9a39e, 0x01e6a380, 0x01e590b8,
   0x01e58aa9, 0x01e58d87, 0x01e998b3, 0x01e4ba92]

/-- Entries 640 to 703 of `chinese_simplified` (include/cardano/bip39_dictionary.hpp:82-2130): 初 … 绝 -/
def chineseSimplified10 : List Nat :=
  [0x01e5889d, 0x01e5889b, 0x01e68a97, 0x01e88083,
   0x01e68a95, 0x01e59d8f, 0x01e7ad96, 0x01e58fa4,
   0x01e5be84, 0x01e68da2, 0x01e69caa, 0x01e8b791,
   0x01e79599, 0x01e992a2, 0x01e69bbe, 0x01e7abaf,
   0x01e8b4a3, 0x01e7ab99, 0x01e7ae80, 0x01e8bfb0,
   0x01e992b1, 0x01e589af, 0x01e5b0bd, 0x01e5b89d,
   0x01e5b084, 0x01e88d89, 0x01e586b2, 0x01e689bf,
   0x01e78bac, 0x01e4bba4, 0x01e99990, 0x01e998bf,
   0x01e5aea3, 0x01e78eaf, 0x01e58f8c, 0x01e8afb7,
   0x01e8b685, 0x01e5beae, 0x01e8aea9, 0x01e68ea7,
   0x01e5b79e, 0x01e889af, 0x01e8bdb4, 0x01e689be,
   0x01e590a6, 0x01e7baaa, 0x01e79b8a, 0x01e4be9d,
   0x01e4bc98, 0x01e9a1b6, 0x01e7a180, 0x01e8bdbd,
   0x01e58092, 0x01e688bf, 0x01e7aa81, 0x01e59d90,
   0x01e7b289, 0x01e6958c, 0x01e795a5, 0x01e5aea2,
   0x01e8a281, 0x01e586b7, 0x01e8839c, 0x01e7bb9d]

/-- Entries 704 to 767 of `chinese_simplified` (include/cardano/bip39_dictionary.hpp:82-2130): 析 … 旧 -/
def chineseSimplified11 : List Nat :=
  [0x01e69e90, 0x01e59d97, 0x01e58982, 0x01e6b58b,
   0x01e4b89d, 0x01e58d8f, 0x01e8af89, 0x01e5bfb5,
   0x01e99988, 0x01e4bb8d, 0x01e7bd97, 0x01e79b90,
   0x01e58f8b, 0x01e6b48b, 0x01e99499, 0x01e88ba6,
   0x01e5a49c, 0x01e58891, 0x01e7a7bb, 0x01e9a291,
   0x01e98090, 0x01e99da0, 0x01e6b7b7, 0x01e6af8d,
   0x01e79fad, 0x01e79aae, 0x01e7bb88, 0x01e8819a,
   0x01e6b1bd, 0x01e69d91, 0x01e4ba91, 0x01e593aa,
   0x01e697a2, 0x01e8b79d, 0x01e58dab, 0x01e5819c,
   0x01e78388, 0x01e5a4ae, 0x01e5af9f, 0x01e783a7,
   0x01e8bf85, 0x01e5a283, 0x01e88ba5, 0x01e58db0,
   0x01e6b4b2, 0x01e588bb, 0x01e68bac, 0x01e6bf80,
   0x01e5ad94, 0x01e6909e, 0x01e7949a, 0x01e5aea4,
   0x01e5be85, 0x01e6a0b8, 0x01e6a0a1, 0x01e695a3,
   0x01e4beb5, 0x01e590a7, 0x01e794b2, 0x01e6b8b8,
   0x01e4b985, 0x01e88f9c, 0x01e591b3, 0x01e697a7]

/-- Entries 768 to 831 of `chinese_simplified` (include/cardano/bip39_dictionary.hpp:82-2130): 模 … 乱 -/
def chineseSimplified12 : List Nat :=
  [0x01e6a8a1, 0x01e6b996, 0x01e8b4a7, 0x01e68d9f,
   0x01e9a284, 0x01e998bb, 0x01e6afab, 0x01e699ae,
   0x01e7a8b3, 0x01e4b999, 0x01e5a688, 0x01e6a48d,
   0x01e681af, 0x01e689a9, 0x01e993b6, 0x01e8afad,
   0x01e68ca5, 0x01e98592, 0x01e5ae88, 0x01e68bbf,
   0x01e5ba8f, 0x01e7bab8, 0x01e58cbb, 0x01e7bcba,
   0x01e99ba8, 0x01e59097, 0x01e99288, 0x01e58898,
   0x01e5958a, 0x01e680a5, 0x01e594b1, 0x01e8afaf,
   0x01e8aead, 0x01e684bf, 0x01e5aea1, 0x01e99984,
   0x01e88eb7, 0x01e88cb6, 0x01e9b29c, 0x01e7b2ae,
   0x01e696a4, 0x01e5ada9, 0x01e884b1, 0x01e7a1ab,
   0x01e882a5, 0x01e59684, 0x01e9be99, 0x01e6bc94,
   0x01e788b6, 0x01e6b890, 0x01e8a180, 0x01e6aca2,
   0x01e6a2b0, 0x01e68e8c, 0x01e6ad8c, 0x01e6b299,
   0x01e5889a, 0x01e694bb, 0x01e8b093, 0x01e79bbe,
   0x01e8aea8, 0x01e6999a, 0x01e7b292, 0x01e4b9b1]

/-- Entries 832 to 895 of `chinese_simplified` (include/cardano/bip39_dictionary.hpp:82-2130): 燃 … 衣 -/
def chineseSimplified13 : List Nat :=
  [0x01e78783, 0x01e79f9b, 0x01e4b98e, 0x01e69d80,
   0x01e88daf, 0x01e5ae81, 0x01e9b281, 0x01e8b4b5,
   0x01e9929f, 0x01e785a4, 0x01e8afbb, 0x01e78fad,
   0x01e4bcaf, 0x01e9a699, 0x01e4bb8b, 0x01e8bfab,
   0x01e58fa5, 0x01e4b8b0, 0x01e59fb9, 0x01e68fa1,
   0x01e585b0, 0x01e68b85, 0x01e5bca6, 0x01e89b8b,
   0x01e6b289, 0x01e58187, 0x01e7a9bf, 0x01e689a7,
   0x01e7ad94, 0x01e4b990, 0x01e8b081, 0x01e9a1ba,
   0x01e7839f, 0x01e7bca9, 0x01e5be81, 0x01e884b8,
   0x01e5969c, 0x01e69dbe, 0x01e8849a, 0x01e59bb0,
   0x01e5bc82, 0x01e5858d, 0x01e8838c, 0x01e6989f,
   0x01e7a68f, 0x01e4b9b0, 0x01e69f93, 0x01e4ba95,
   0x01e6a682, 0x01e685a2, 0x01e68095, 0x01e7a381,
   0x01e5808d, 0x01e7a596, 0x01e79a87, 0x01e4bf83,
   0x01e99d99, 0x01e8a1a5, 0x01e8af84, 0x01e7bfbb,
   0x01e88289, 0x01e8b7b5, 0x01e5b0bc, 0x01e8a1a3]

/-- Entries 896 to 959 of `chinese_simplified` (include/cardano/bip39_dictionary.hpp:82-2130): 宽 … 凯 -/
def chineseSimplified14 : List Nat :=
  [0x01e5aebd, 0x01e689ac, 0x01e6a389, 0x01e5b88c,
   0x01e4bca4, 0x01e6938d, 0x01e59e82, 0x01e7a78b,
   0x01e5ae9c, 0x01e6b0a2, 0x01e5a597, 0x01e79da3,
   0x01e68caf, 0x01e69eb6, 0x01e4baae, 0x01e69cab,
   0x01e5aeaa, 0x01e5ba86, 0x01e7bc96, 0x01e7899b,
   0x01e8a7a6, 0x01e698a0, 0x01e99bb7, 0x01e99480,
   0x01e8af97, 0x01e5baa7, 0x01e5b185, 0x01e68a93,
   0x01e8a382, 0x01e8839e, 0x01e591bc, 0x01e5a898,
   0x01e699af, 0x01e5a881, 0x01e7bbbf, 0x01e699b6,
   0x01e58e9a, 0x01e79b9f, 0x01e8a1a1, 0x01e9b8a1,
   0x01e5ad99, 0x01e5bbb6, 0x01e58db1, 0x01e883b6,
   0x01e5b18b, 0x01e4b9a1, 0x01e4b8b4, 0x01e99986,
   0x01e9a1be, 0x01e68e89, 0x01e59180, 0x01e781af,
   0x01e5b281, 0x01e68eaa, 0x01e69d9f, 0x01e88090,
   0x01e589a7, 0x01e78e89, 0x01e8b5b5, 0x01e8b7b3,
   0x01e593a5, 0x01e5ada3, 0x01e8afbe, 0x01e587af]

/-- Entries 960 to 1023 of `chinese_simplified` (include/cardano/bip39_dictionary.hpp:82-2130): 胡 … 竟 -/
def chineseSimplified15 : List Nat :=
  [0x01e883a1, 0x01e9a29d, 0x01e6acbe, 0x01e7bb8d,
   0x01e58db7, 0x01e9bd90, 0x01e4bc9f, 0x01e892b8,
   0x01e6ae96, 0x01e6b0b8, 0x01e5ae97, 0x01e88b97,
   0x01e5b79d, 0x01e78289, 0x01e5b2a9, 0x01e5bcb1,
   0x01e99bb6, 0x01e69da8, 0x01e5a58f, 0x01e6b2bf,
   0x01e99cb2, 0x01e69d86, 0x01e68ea2, 0x01e6bb91,
   0x01e99587, 0x01e9a5ad, 0x01e6b593, 0x01e888aa,
   0x01e68080, 0x01e8b5b6, 0x01e5ba93, 0x01e5a4ba,
   0x01e4bc8a, 0x01e781b5, 0x01e7a88e, 0x01e98094,
   0x01e781ad, 0x01e8b59b, 0x01e5bd92, 0x01e58fac,
   0x01e9bc93, 0x01e692ad, 0x01e79b98, 0x01e8a381,
   0x01e999a9, 0x01e5bab7, 0x01e594af, 0x01e5bd95,
   0x01e88f8c, 0x01e7baaf, 0x01e5809f, 0x01e7b396,
   0x01e79b96, 0x01e6a8aa, 0x01e7aca6, 0x01e7a781,
   0x01e58aaa, 0x01e5a082, 0x01e59f9f, 0x01e69eaa,
   0x01e6b6a6, 0x01e5b985, 0x01e59388, 0x01e7ab9f]

/-- Entries 1024 to 1087 of `chinese_simplified` (include/cardano/bip39_dictionary.hpp:82-2130): 熟 … 亦 -/
def chineseSimplified16 : List Nat :=
  [0x01e7869f, 0x01e899ab, 0x01e6b3bd, 0x01e88491,
   0x01e5a3a4, 0x01e7a2b3, 0x01e6aca7, 0x01e9818d,
   0x01e4bea7, 0x01e5afa8, 0x01e695a2, 0x01e5bdbb,
   0x01e89991, 0x01e6969c, 0x01e89684, 0x01e5baad,
   0x01e7bab3, 0x01e5bcb9, 0x01e9a5b2, 0x01e4bcb8,
   0x01e68a98, 0x01e9baa6, 0x01e6b9bf, 0x01e69a97,
   0x01e88db7, 0x01e793a6, 0x01e5a19e, 0x01e5ba8a,
   0x01e7ad91, 0x01e681b6, 0x01e688b7, 0x01e8aebf,
   0x01e5a194, 0x01e5a587, 0x01e9808f, 0x01e6a281,
   0x01e58880, 0x01e6978b, 0x01e8bfb9, 0x01e58da1,
   0x01e6b0af, 0x01e98187, 0x01e4bbbd, 0x01e6af92,
   0x01e6b3a5, 0x01e98080, 0x01e6b497, 0x01e69186,
   0x01e781b0, 0x01e5bda9, 0x01e58d96, 0x01e88097,
   0x01e5a48f, 0x01e68ba9, 0x01e5bf99, 0x01e9939c,
   0x01e78cae, 0x01e7a1ac, 0x01e4ba88, 0x01e7b981,
   0x01e59c88, 0x01e99baa, 0x01e587bd, 0x01e4baa6]

/-- Entries 1088 to 1151 of `chinese_simplified` (include/cardano/bip39_dictionary.hpp:82-2130): 抽 … 顿 -/
def chineseSimplified17 : List Nat :=
  [0x01e68abd, 0x01e7af87, 0x01e998b5, 0x01e998b4,
   0x01e4b881, 0x01e5b0ba, 0x01e8bfbd, 0x01e5a086,
   0x01e99b84, 0x01e8bf8e, 0x01e6b39b, 0x01e788b8,
   0x01e6a5bc, 0x01e981bf, 0x01e8b08b, 0x01e590a8,
   0x01e9878e, 0x01e78caa, 0x01e69797, 0x01e7b4af,
   0x01e5818f, 0x01e585b8, 0x01e9a686, 0x01e7b4a2,
   0x01e7a7a6, 0x01e88482, 0x01e6bdae, 0x01e788b7,
   0x01e8b186, 0x01e5bfbd, 0x01e68998, 0x01e6838a,
   0x01e5a191, 0x01e98197, 0x01e68488, 0x01e69cb1,
   0x01e69bbf, 0x01e7baa4, 0x01e7b297, 0x01e580be,
   0x01e5b09a, 0x01e7979b, 0x01e6a59a, 0x01e8b0a2,
   0x01e5a58b, 0x01e8b4ad, 0x01e7a3a8, 0x01e5909b,
   0x01e6b1a0, 0x01e69781, 0x01e7a28e, 0x01e9aaa8,
   0x01e79b91, 0x01e68d95, 0x01e5bc9f, 0x01e69ab4,
   0x01e589b2, 0x01e8b4af, 0x01e6ae8a, 0x01e9878a,
   0x01e8af8d, 0x01e4baa1, 0x01e5a381, 0x01e9a1bf]

/-- Entries 1152 to 1215 of `chinese_simplified` (include/cardano/bip39_dictionary.hpp:82-2130): 宝 … 筒 -/
def chineseSimplified18 : List Nat :=
  [0x01e5ae9d, 0x01e58d88, 0x01e5b098, 0x01e997bb,
   0x01e68fad, 0x01e782ae, 0x01e6ae8b, 0x01e586ac,
   0x01e6a1a5, 0x01e5a687, 0x01e8ada6, 0x01e7bbbc,
   0x01e68b9b, 0x01e590b4, 0x01e4bb98, 0x01e6b5ae,
   0x01e981ad, 0x01e5be90, 0x01e682a8, 0x01e69187,
   0x01e8b0b7, 0x01e8b59e, 0x01e7aeb1, 0x01e99a94,
   0x01e8aea2, 0x01e794b7, 0x01e590b9, 0x01e59bad,
   0x01e7bab7, 0x01e59490, 0x01e8b4a5, 0x01e5ae8b,
   0x01e78ebb, 0x01e5b7a8, 0x01e88095, 0x01e59da6,
   0x01e88da3, 0x01e997ad, 0x01e6b9be, 0x01e994ae,
   0x01e587a1, 0x01e9a9bb, 0x01e99485, 0x01e69591,
   0x01e681a9, 0x01e589a5, 0x01e5879d, 0x01e7a2b1,
   0x01e9bdbf, 0x01e688aa, 0x01e782bc, 0x01e9babb,
   0x01e7baba, 0x01e7a681, 0x01e5ba9f, 0x01e79b9b,
   0x01e78988, 0x01e7bc93, 0x01e58780, 0x01e79d9b,
   0x01e6988c, 0x01e5a99a, 0x01e6b689, 0x01e7ad92]

/-- Entries 1216 to 1279 of `chinese_simplified` (include/cardano/bip39_dictionary.hpp:82-2130): 嘴 … 冰 -/
def chineseSimplified19 : List Nat :=
  [0x01e598b4, 0x01e68f92, 0x01e5b2b8, 0x01e69c97,
   0x01e5ba84, 0x01e8a197, 0x01e8978f, 0x01e5a791,
   0x01e8b4b8, 0x01e88590, 0x01e5a5b4, 0x01e595a6,
   0x01e683af, 0x01e4b998, 0x01e4bc99, 0x01e681a2,
   0x01e58c80, 0x01e7bab1, 0x01e6898e, 0x01e8bea9,
   0x01e880b3, 0x01e5bdaa, 0x01e887a3, 0x01e4babf,
   0x01e79283, 0x01e68ab5, 0x01e88489, 0x01e7a780,
   0x01e890a8, 0x01e4bf84, 0x01e7bd91, 0x01e8889e,
   0x01e5ba97, 0x01e596b7, 0x01e7bab5, 0x01e5afb8,
   0x01e6b197, 0x01e68c82, 0x01e6b4aa, 0x01e8b4ba,
   0x01e997aa, 0x01e69fac, 0x01e78886, 0x01e783af,
   0x01e6b4a5, 0x01e7a8bb, 0x01e5a299, 0x01e8bdaf,
   0x01e58b87, 0x01e5838f, 0x01e6bb9a, 0x01e58e98,
   0x01e89299, 0x01e88ab3, 0x01e882af, 0x01e59da1,
   0x01e69fb1, 0x01e88da1, 0x01e885bf, 0x01e4bbaa,
   0x01e69785, 0x01e5b0be, 0x01e8bda7, 0x01e586b0]

/-- Entries 1280 to 1343 of `chinese_simplified` (include/cardano/bip39_dictionary.hpp:82-2130): 贡 … 壮 -/
def chineseSimplified20 : List Nat :=
  [0x01e8b4a1, 0x01e799bb, 0x01e9bb8e, 0x01e5898a,
   0x01e992bb, 0x01e58b92, 0x01e98083, 0x01e99a9c,
   0x01e6b0a8, 0x01e983ad, 0x01e5b3b0, 0x01e5b881,
   0x01e6b8af, 0x01e4bc8f, 0x01e8bda8, 0x01e4baa9,
   0x01e6af95, 0x01e693a6, 0x01e88eab, 0x01e588ba,
   0x01e6b5aa, 0x01e7a798, 0x01e68fb4, 0x01e6a0aa,
   0x01e581a5, 0x01e594ae, 0x01e882a1, 0x01e5b29b,
   0x01e79498, 0x01e6b3a1, 0x01e79da1, 0x01e7aba5,
   0x01e993b8, 0x01e6b1a4, 0x01e99880, 0x01e4bc91,
   0x01e6b187, 0x01e8888d, 0x01e789a7, 0x01e7bb95,
   0x01e782b8, 0x01e593b2, 0x01e7a3b7, 0x01e7bba9,
   0x01e69c8b, 0x01e6b7a1, 0x01e5b096, 0x01e590af,
   0x01e999b7, 0x01e69fb4, 0x01e59188, 0x01e5be92,
   0x01e9a29c, 0x01e6b3aa, 0x01e7a88d, 0x01e5bf98,
   0x01e6b3b5, 0x01e8939d, 0x01e68b96, 0x01e6b49e,
   0x01e68e88, 0x01e9959c, 0x01e8be9b, 0x01e5a3ae]

/-- Entries 1344 to 1407 of `chinese_simplified` (include/cardano/bip39_dictionary.hpp:82-2130): 锋 … 缝 -/
def chineseSimplified21 : List Nat :=
  [0x01e9948b, 0x01e8b4ab, 0x01e8999a, 0x01e5bcaf,
   0x01e691a9, 0x01e6b3b0, 0x01e5b9bc, 0x01e5bbb7,
   0x01e5b08a, 0x01e7aa97, 0x01e7bab2, 0x01e5bc84,
   0x01e99ab6, 0x01e79691, 0x01e6b08f, 0x01e5aeab,
   0x01e5a790, 0x01e99c87, 0x01e7919e, 0x01e680aa,
   0x01e5b0a4, 0x01e790b4, 0x01e5beaa, 0x01e68f8f,
   0x01e8869c, 0x01e8bf9d, 0x01e5a4b9, 0x01e885b0,
   0x01e7bc98, 0x01e78fa0, 0x01e7a9b7, 0x01e6a3ae,
   0x01e69e9d, 0x01e7abb9, 0x01e6b29f, 0x01e582ac,
   0x01e7bbb3, 0x01e5bf86, 0x01e982a6, 0x01e589a9,
   0x01e5b9b8, 0x01e6b586, 0x01e6a08f, 0x01e68ba5,
   0x01e78999, 0x01e8b4ae, 0x01e7a4bc, 0x01e6bba4,
   0x01e992a0, 0x01e7bab9, 0x01e7bda2, 0x01e68b8d,
   0x01e592b1, 0x01e5968a, 0x01e8a296, 0x01e59f83,
   0x01e58ba4, 0x01e7bd9a, 0x01e784a6, 0x01e6bd9c,
   0x01e4bc8d, 0x01e5a2a8, 0x01e6acb2, 0x01e7bc9d]

/-- Entries 1408 to 1471 of `chinese_simplified` (include/cardano/bip39_dictionary.hpp:82-2130): 姓 … 珍 -/
def chineseSimplified22 : List Nat :=
  [0x01e5a793, 0x01e5888a, 0x01e9a5b1, 0x01e4bbbf,
   0x01e5a596, 0x01e9939d, 0x01e9acbc, 0x01e4b8bd,
   0x01e8b7a8, 0x01e9bb98, 0x01e68c96, 0x01e993be,
   0x01e689ab, 0x01e5969d, 0x01e8a28b, 0x01e782ad,
   0x01e6b1a1, 0x01e5b995, 0x01e8afb8, 0x01e5bca7,
   0x01e58ab1, 0x01e6a285, 0x01e5a5b6, 0x01e6b481,
   0x01e781be, 0x01e8889f, 0x01e989b4, 0x01e88baf,
   0x01e8aebc, 0x01e68ab1, 0x01e6af81, 0x01e68782,
   0x01e5af92, 0x01e699ba, 0x01e59f94, 0x01e5af84,
   0x01e5b18a, 0x01e8b783, 0x01e6b8a1, 0x01e68c91,
   0x01e4b8b9, 0x01e889b0, 0x01e8b49d, 0x01e7a2b0,
   0x01e68b94, 0x01e788b9, 0x01e688b4, 0x01e7a081,
   0x01e6a2a6, 0x01e88abd, 0x01e78694, 0x01e8b5a4,
   0x01e6b894, 0x01e593ad, 0x01e695ac, 0x01e9a297,
   0x01e5a594, 0x01e99385, 0x01e4bbb2, 0x01e8998e,
   0x01e7a880, 0x01e5a6b9, 0x01e4b98f, 0x01e78f8d]

/-- Entries 1472 to 1535 of `chinese_simplified` (include/cardano/bip39_dictionary.hpp:82-2130): 申 … 紫 -/
def chineseSimplified23 : List Nat :=
  [0x01e794b3, 0x01e6a18c, 0x01e981b5, 0x01e58581,
   0x01e99a86, 0x01e89eba, 0x01e4bb93, 0x01e9ad8f,
   0x01e99490, 0x01e69993, 0x01e6b0ae, 0x01e585bc,
   0x01e99a90, 0x01e7a28d, 0x01e8b5ab, 0x01e68ba8,
   0x01e5bfa0, 0x01e88283, 0x01e7bcb8, 0x01e789b5,
   0x01e68aa2, 0x01e58d9a, 0x01e5b7a7, 0x01e5a3b3,
   0x01e58584, 0x01e69d9c, 0x01e8aeaf, 0x01e8af9a,
   0x01e7a2a7, 0x01e7a5a5, 0x01e69faf, 0x01e9a1b5,
   0x01e5b7a1, 0x01e79fa9, 0x01e682b2, 0x01e7818c,
   0x01e9be84, 0x01e4bca6, 0x01e7a5a8, 0x01e5afbb,
   0x01e6a182, 0x01e993ba, 0x01e59ca3, 0x01e68190,
   0x01e681b0, 0x01e98391, 0x01e8b6a3, 0x01e68aac,
   0x01e88d92, 0x01e885be, 0x01e8b4b4, 0x01e69f94,
   0x01e6bbb4, 0x01e78c9b, 0x01e99894, 0x01e8be86,
   0x01e5a6bb, 0x01e5a1ab, 0x01e692a4, 0x01e582a8,
   0x01e7adbe, 0x01e997b9, 0x01e689b0, 0x01e7b4ab]

/-- Entries 1536 to 1599 of `chinese_simplified` (include/cardano/bip39_dictionary.hpp:82-2130): 砂 … 肩 -/
def chineseSimplified24 : List Nat :=
  [0x01e7a082, 0x01e98092, 0x01e6888f, 0x01e5908a,
   0x01e999b6, 0x01e4bc90, 0x01e59682, 0x01e79697,
   0x01e793b6, 0x01e5a986, 0x01e68a9a, 0x01e88782,
   0x01e691b8, 0x01e5bf8d, 0x01e899be, 0x01e89ca1,
   0x01e982bb, 0x01e883b8, 0x01e5b7a9, 0x01e68ca4,
   0x01e581b6, 0x01e5bc83, 0x01e6a7bd, 0x01e58ab2,
   0x01e4b9b3, 0x01e98293, 0x01e59089, 0x01e4bb81,
   0x01e78382, 0x01e7a096, 0x01e7a79f, 0x01e4b98c,
   0x01e888b0, 0x01e4bcb4, 0x01e7939c, 0x01e6b585,
   0x01e4b899, 0x01e69a82, 0x01e787a5, 0x01e6a9a1,
   0x01e69fb3, 0x01e8bfb7, 0x01e69a96, 0x01e7898c,
   0x01e7a7a7, 0x01e88386, 0x01e8afa6, 0x01e7b0a7,
   0x01e8b88f, 0x01e793b7, 0x01e8b0b1, 0x01e59186,
   0x01e5aebe, 0x01e7b38a, 0x01e6b49b, 0x01e8be89,
   0x01e684a4, 0x01e7ab9e, 0x01e99a99, 0x01e68092,
   0x01e7b298, 0x01e4b983, 0x01e7bbaa, 0x01e882a9]

/-- Entries 1600 to 1663 of `chinese_simplified` (include/cardano/bip39_dictionary.hpp:82-2130): 籍 … 叛 -/
def chineseSimplified25 : List Nat :=
  [0x01e7b18d, 0x01e6958f, 0x01e6b682, 0x01e78699,
   0x01e79a86, 0x01e4bea6, 0x01e682ac, 0x01e68e98,
   0x01e4baab, 0x01e7baa0, 0x01e98692, 0x01e78b82,
   0x01e99481, 0x01e6b780, 0x01e681a8, 0x01e789b2,
   0x01e99cb8, 0x01e788ac, 0x01e8b58f, 0x01e98086,
   0x01e78ea9, 0x01e999b5, 0x01e7a59d, 0x01e7a792,
   0x01e6b599, 0x01e8b28c, 0x01e5bdb9, 0x01e5bdbc,
   0x01e68289, 0x01e9b8ad, 0x01e8b68b, 0x01e587a4,
   0x01e699a8, 0x01e7959c, 0x01e8be88, 0x01e7a7a9,
   0x01e58db5, 0x01e7bdb2, 0x01e6a2af, 0x01e7828e,
   0x01e6bba9, 0x01e6a38b, 0x01e9a9b1, 0x01e7ad9b,
   0x01e5b3a1, 0x01e58692, 0x01e595a5, 0x01e5afbf,
   0x01e8af91, 0x01e6b5b8, 0x01e6b389, 0x01e5b8bd,
   0x01e8bf9f, 0x01e7a185, 0x01e79686, 0x01e8b4b7,
   0x01e6bc8f, 0x01e7a8bf, 0x01e586a0, 0x01e5aba9,
   0x01e88381, 0x01e88aaf, 0x01e789a2, 0x01e58f9b]

/-- Entries 1664 to 1727 of `chinese_simplified` (include/cardano/bip39_dictionary.hpp:82-2130): 蚀 … 估 -/
def chineseSimplified26 : List Nat :=
  [0x01e89a80, 0x01e5a5a5, 0x01e9b8a3, 0x01e5b2ad,
   0x01e7be8a, 0x01e587ad, 0x01e4b8b2, 0x01e5a198,
   0x01e7bb98, 0x01e985b5, 0x01e89e8d, 0x01e79b86,
   0x01e994a1, 0x01e5ba99, 0x01e7adb9, 0x01e586bb,
   0x01e8be85, 0x01e69184, 0x01e8a2ad, 0x01e7ad8b,
   0x01e68b92, 0x01e5839a, 0x01e697b1, 0x01e992be,
   0x01e9b89f, 0x01e6bc86, 0x01e6b288, 0x01e79c89,
   0x01e7968f, 0x01e6b7bb, 0x01e6a392, 0x01e7a997,
   0x01e7a19d, 0x01e99fa9, 0x01e980bc, 0x01e689ad,
   0x01e4bea8, 0x01e58789, 0x01e68cba, 0x01e7a297,
   0x01e6a0bd, 0x01e78292, 0x01e69daf, 0x01e682a3,
   0x01e9a68f, 0x01e58a9d, 0x01e8b1aa, 0x01e8bebd,
   0x01e58b83, 0x01e9b8bf, 0x01e697a6, 0x01e5908f,
   0x01e68b9c, 0x01e78b97, 0x01e59f8b, 0x01e8be8a,
   0x01e68ea9, 0x01e9a5ae, 0x01e690ac, 0x01e9aa82,
   0x01e8be9e, 0x01e58bbe, 0x01e689a3, 0x01e4bcb0]

/-- Entries 1728 to 1791 of `chinese_simplified` (include/cardano/bip39_dictionary.hpp:82-2130): 蒋 … 桑 -/
def chineseSimplified27 : List Nat :=
  [0x01e8928b, 0x01e7bb92, 0x01e99bbe, 0x01e4b888,
   0x01e69cb5, 0x01e5a786, 0x01e68b9f, 0x01e5ae87,
   0x01e8be91, 0x01e99995, 0x01e99b95, 0x01e581bf,
   0x01e89384, 0x01e5b487, 0x01e589aa, 0x01e580a1,
   0x01e58e85, 0x01e592ac, 0x01e9a9b6, 0x01e896af,
   0x01e588b7, 0x01e696a5, 0x01e795aa, 0x01e8b58b,
   0x01e5a589, 0x01e4bd9b, 0x01e6b587, 0x01e6bcab,
   0x01e69bbc, 0x01e68987, 0x01e99299, 0x01e6a183,
   0x01e689b6, 0x01e4bb94, 0x01e8bf94, 0x01e4bf97,
   0x01e4ba8f, 0x01e88594, 0x01e99e8b, 0x01e6a3b1,
   0x01e8a686, 0x01e6a186, 0x01e68284, 0x01e58f94,
   0x01e6929e, 0x01e9aa97, 0x01e58b98, 0x01e697ba,
   0x01e6b2b8, 0x01e5ada4, 0x01e59090, 0x01e5ad9f,
   0x01e6b8a0, 0x01e5b188, 0x01e796be, 0x01e5a699,
   0x01e6839c, 0x01e4bbb0, 0x01e78ba0, 0x01e88380,
   0x01e8b090, 0x01e68a9b, 0x01e99c89, 0x01e6a191]

/-- Entries 1792 to 1855 of `chinese_simplified` (include/cardano/bip39_dictionary.hpp:82-2130): 岗 … 锦 -/
def chineseSimplified28 : List Nat :=
  [0x01e5b297, 0x01e5989b, 0x01e8a1b0, 0x01e79b97,
   0x01e6b897, 0x01e8848f, 0x01e8b596, 0x01e6b68c,
   0x01e7949c, 0x01e69bb9, 0x01e99885, 0x01e8828c,
   0x01e593a9, 0x01e58e89, 0x01e78383, 0x01e7baac,
   0x01e6af85, 0x01e698a8, 0x01e4bcaa, 0x01e79787,
   0x01e785ae, 0x01e58fb9, 0x01e99289, 0x01e690ad,
   0x01e88c8e, 0x01e7acbc, 0x01e985b7, 0x01e581b7,
   0x01e5bc93, 0x01e994a5, 0x01e68192, 0x01e69db0,
   0x01e59d91, 0x01e9bcbb, 0x01e7bfbc, 0x01e7bab6,
   0x01e58f99, 0x01e78bb1, 0x01e980ae, 0x01e7bd90,
   0x01e7bb9c, 0x01e6a39a, 0x01e68a91, 0x01e886a8,
   0x01e894ac, 0x01e5afba, 0x01e9aaa4, 0x01e7a986,
   0x01e586b6, 0x01e69eaf, 0x01e5868c, 0x01e5b0b8,
   0x01e587b8, 0x01e7bb85, 0x01e59daf, 0x01e789ba,
   0x01e784b0, 0x01e8bdb0, 0x01e6aca3, 0x01e6998b,
   0x01e798a6, 0x01e5bea1, 0x01e994ad, 0x01e994a6]

/-- Entries 1856 to 1919 of `chinese_simplified` (include/cardano/bip39_dictionary.hpp:82-2130): 丧 … 贤 -/
def chineseSimplified29 : List Nat :=
  [0x01e4b8a7, 0x01e697ac, 0x01e994bb, 0x01e59e84,
   0x01e6909c, 0x01e68991, 0x01e98280, 0x01e4baad,
   0x01e985af, 0x01e8bf88, 0x01e88892, 0x01e88486,
   0x01e985b6, 0x01e997b2, 0x01e5bfa7, 0x01e9859a,
   0x01e9a1bd, 0x01e7bebd, 0x01e6b6a8, 0x01e58db8,
   0x01e4bb97, 0x01e999aa, 0x01e8be9f, 0x01e683a9,
   0x01e69dad, 0x01e5a79a, 0x01e8829a, 0x01e68d89,
   0x01e9a398, 0x01e6bc82, 0x01e69886, 0x01e6acba,
   0x01e590be, 0x01e9838e, 0x01e783b7, 0x01e6b181,
   0x01e591b5, 0x01e9a5b0, 0x01e890a7, 0x01e99b85,
   0x01e982ae, 0x01e8bf81, 0x01e78795, 0x01e69292,
   0x01e5a7bb, 0x01e8b5b4, 0x01e5aeb4, 0x01e783a6,
   0x01e580ba, 0x01e5b890, 0x01e69691, 0x01e99383,
   0x01e697a8, 0x01e98687, 0x01e891a3, 0x01e9a5bc,
   0x01e99b8f, 0x01e5a7bf, 0x01e68b8c, 0x01e58285,
   0x01e885b9, 0x01e5a6a5, 0x01e68f89, 0x01e8b4a4]

/-- Entries 1920 to 1983 of `chinese_simplified` (include/cardano/bip39_dictionary.hpp:82-2130): 拆 … 俩 -/
def chineseSimplified30 : List Nat :=
  [0x01e68b86, 0x01e6adaa, 0x01e891a1, 0x01e883ba,
   0x01e4b8a2, 0x01e6b5a9, 0x01e5bebd, 0x01e69882,
   0x01e59eab, 0x01e68ca1, 0x01e8a788, 0x01e8b4aa,
   0x01e685b0, 0x01e7bcb4, 0x01e6b1aa, 0x01e6858c,
   0x01e586af, 0x01e8afba, 0x01e5a79c, 0x01e8b08a,
   0x01e587b6, 0x01e58aa3, 0x01e8afac, 0x01e88080,
   0x01e6988f, 0x01e8baba, 0x01e79b88, 0x01e9aa91,
   0x01e4b994, 0x01e6baaa, 0x01e4b89b, 0x01e58da2,
   0x01e68ab9, 0x01e997b7, 0x01e592a8, 0x01e588ae,
   0x01e9a9be, 0x01e7bc86, 0x01e6829f, 0x01e69198,
   0x01e99392, 0x01e68eb7, 0x01e9a287, 0x01e5b9bb,
   0x01e69f84, 0x01e683a0, 0x01e683a8, 0x01e4bdb3,
   0x01e4bb87, 0x01e8858a, 0x01e7aa9d, 0x01e6b6a4,
   0x01e58991, 0x01e79ea7, 0x01e5a0a1, 0x01e6b3bc,
   0x01e891b1, 0x01e7bda9, 0x01e99c8d, 0x01e68d9e,
   0x01e8838e, 0x01e88b8d, 0x01e6bba8, 0x01e4bfa9]

/-- Entries 1984 to 2047 of `chinese_simplified` (include/cardano/bip39_dictionary.hpp:82-2130): 捅 … 歇 -/
def chineseSimplified31 : List Nat :=
  [0x01e68d85, 0x01e6b998, 0x01e7a08d, 0x01e99c9e,
   0x01e982b5, 0x01e89084, 0x01e796af, 0x01e6b7ae,
   0x01e98182, 0x01e7868a, 0x01e7b2aa, 0x01e78398,
   0x01e5aebf, 0x01e6a1a3, 0x01e68888, 0x01e9a9b3,
   0x01e5ab82, 0x01e8a395, 0x01e5be99, 0x01e7aead,
   0x01e68d90, 0x01e882a0, 0x01e69291, 0x01e69992,
   0x01e8bea8, 0x01e6aebf, 0x01e88eb2, 0x01e6918a,
   0x01e69085, 0x01e985b1, 0x01e5b18f, 0x01e796ab,
   0x01e59380, 0x01e894a1, 0x01e5a0b5, 0x01e6b2ab,
   0x01e79ab1, 0x01e79585, 0x01e58fa0, 0x01e99881,
   0x01e88eb1, 0x01e695b2, 0x01e8be96, 0x01e992a9,
   0x01e79795, 0x01e59d9d, 0x01e5b7b7, 0x01e9a5bf,
   0x01e7a5b8, 0x01e4b898, 0x01e78e84, 0x01e6ba9c,
   0x01e69bb0, 0x01e980bb, 0x01e5bdad, 0x01e5b09d,
   0x01e58dbf, 0x01e5a6a8, 0x01e88987, 0x01e5909e,
   0x01e99fa6, 0x01e680a8, 0x01e79fae, 0x01e6ad87]

/-- The table `chinese_simplified` (include/cardano/bip39_dictionary.hpp:82-2130). -/
def chineseSimplified : List Nat :=
  chineseSimplified0 ++ (chineseSimplified1 ++ (chineseSimplified2 ++ (chineseSimplified3 ++ (chineseSimplified4 ++ (chineseSimplified5 ++ (chineseSimplified6 ++ (chineseSimplified7 ++ (chineseSimplified8 ++ (chineseSimplified9 ++ (chineseSimplified10 ++ (chineseSimplified11 ++ (chineseSimplified12 ++ (chineseSimplified13 ++ (chineseSimplified14 ++ (chineseSimplified15 ++ (chineseSimplified16 ++ (chineseSimplified17 ++ (chineseSimplified18 ++ (chineseSimplified19 ++ (chineseSimplified20 ++ (chineseSimplified21 ++ (chineseSimplified22 ++ (chineseSimplified23 ++ (chineseSimplified24 ++ (chineseSimplified25 ++ (chineseSimplified26 ++ (chineseSimplified27 ++ (chineseSimplified28 ++ (chineseSimplified29 ++ (chineseSimplified30 ++ (chineseSimplified31)))))))))))))))))))))))))))))))

end Cardano.Bip39
