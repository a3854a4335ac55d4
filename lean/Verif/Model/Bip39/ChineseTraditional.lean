/-! Generated from include/cardano/bip39_dictionary.hpp:2132-4180 (the table `chinese_traditional`).
Each word is written as one number: the byte 1 followed by the bytes of the word. -/

namespace Cardano.Bip39

/-- Entries 0 to 63 of `chinese_traditional` (include/cardano/bip39_dictionary.hpp:2132-4180): 的 … 十 -/
def chineseTraditional0 : List Nat :=
  [0x01e79a84, 0x01e4b880, 0x01e698af, 0x01e59ca8,
   0x01e4b88d, 0x01e4ba86, 0x01e69c89, 0x01e5928c,
   0x01e4baba, 0x01e98099, 0x01e4b8ad, 0x01e5a4a7,
   0x01e782ba, 0x01e4b88a, 0x01e5808b, 0x01e59c8b,
   0x01e68891, 0x01e4bba5, 0x01e8a681, 0x01e4bb96,
   0x01e69982, 0x01e4be86, 0x01e794a8, 0x01e58091,
   0x01e7949f, 0x01e588b0, 0x01e4bd9c, 0x01e59cb0,
   0x01e696bc, 0x01e587ba, 0x01e5b0b1, 0x01e58886,
   0x01e5b08d, 0x01e68890, 0x01e69c83, 0x01e58faf,
   0x01e4b8bb, 0x01e799bc, 0x01e5b9b4, 0x01e58b95,
   0x01e5908c, 0x01e5b7a5, 0x01e4b99f, 0x01e883bd,
   0x01e4b88b, 0x01e9818e, 0x01e5ad90, 0x01e8aaaa,
   0x01e794a2, 0x01e7a8ae, 0x01e99da2, 0x01e8808c,
   0x01e696b9, 0x01e5be8c, 0x01e5a49a, 0x01e5ae9a,
   0x01e8a18c, 0x01e5adb8, 0x01e6b395, 0x01e68980,
   0x01e6b091, 0x01e5be97, 0x01e7b693, 0x01e58d81]

/-- Entries 64 to 127 of `chinese_traditional` (include/cardano/bip39_dictionary.hpp:2132-4180): 三 … 全 -/
def chineseTraditional1 : List Nat :=
  [0x01e4b889, 0x01e4b98b, 0x01e980b2, 0x01e89197,
   0x01e7ad89, 0x01e983a8, 0x01e5baa6, 0x01e5aeb6,
   0x01e99bbb, 0x01e58a9b, 0x01e8a3a1, 0x01e5a682,
   0x01e6b0b4, 0x01e58c96, 0x01e9ab98, 0x01e887aa,
   0x01e4ba8c, 0x01e79086, 0x01e8b5b7, 0x01e5b08f,
   0x01e789a9, 0x01e78fbe, 0x01e5afa6, 0x01e58aa0,
   0x01e9878f, 0x01e983bd, 0x01e585a9, 0x01e9ab94,
   0x01e588b6, 0x01e6a99f, 0x01e795b6, 0x01e4bdbf,
   0x01e9bb9e, 0x01e5be9e, 0x01e6a5ad, 0x01e69cac,
   0x01e58ebb, 0x01e68a8a, 0x01e680a7, 0x01e5a5bd,
   0x01e68789, 0x01e9968b, 0x01e5ae83, 0x01e59088,
   0x01e98284, 0x01e59ba0, 0x01e794b1, 0x01e585b6,
   0x01e4ba9b, 0x01e784b6, 0x01e5898d, 0x01e5a496,
   0x01e5a4a9, 0x01e694bf, 0x01e59b9b, 0x01e697a5,
   0x01e982a3, 0x01e7a4be, 0x01e7bea9, 0x01e4ba8b,
   0x01e5b9b3, 0x01e5bda2, 0x01e79bb8, 0x01e585a8]

/-- Entries 128 to 191 of `chinese_traditional` (include/cardano/bip39_dictionary.hpp:2132-4180): 表 … 料 -/
def chineseTraditional2 : List Nat :=
  [0x01e8a1a8, 0x01e99693, 0x01e6a8a3, 0x01e88887,
   0x01e9979c, 0x01e59084, 0x01e9878d, 0x01e696b0,
   0x01e7b79a, 0x01e585a7, 0x01e695b8, 0x01e6ada3,
   0x01e5bf83, 0x01e58f8d, 0x01e4bda0, 0x01e6988e,
   0x01e79c8b, 0x01e58e9f, 0x01e58f88, 0x01e9babc,
   0x01e588a9, 0x01e6af94, 0x01e68896, 0x01e4bd86,
   0x01e8b3aa, 0x01e6b0a3, 0x01e7acac, 0x01e59091,
   0x01e98193, 0x01e591bd, 0x01e6ada4, 0x01e8ae8a,
   0x01e6a29d, 0x01e58faa, 0x01e6b292, 0x01e7b590,
   0x01e8a7a3, 0x01e5958f, 0x01e6848f, 0x01e5bbba,
   0x01e69c88, 0x01e585ac, 0x01e784a1, 0x01e7b3bb,
   0x01e8bb8d, 0x01e5be88, 0x01e68385, 0x01e88085,
   0x01e69c80, 0x01e7ab8b, 0x01e4bba3, 0x01e683b3,
   0x01e5b7b2, 0x01e9809a, 0x01e4b8a6, 0x01e68f90,
   0x01e79bb4, 0x01e9a18c, 0x01e9bba8, 0x01e7a88b,
   0x01e5b195, 0x01e4ba94, 0x01e69e9c, 0x01e69699]

/-- Entries 192 to 255 of `chinese_traditional` (include/cardano/bip39_dictionary.hpp:2132-4180): 象 … 任 -/
def chineseTraditional3 : List Nat :=
  [0x01e8b1a1, 0x01e593a1, 0x01e99da9, 0x01e4bd8d,
   0x01e585a5, 0x01e5b8b8, 0x01e69687, 0x01e7b8bd,
   0x01e6aca1, 0x01e59381, 0x01e5bc8f, 0x01e6b4bb,
   0x01e8a8ad, 0x01e58f8a, 0x01e7aea1, 0x01e789b9,
   0x01e4bbb6, 0x01e995b7, 0x01e6b182, 0x01e88081,
   0x01e9a0ad, 0x01e59fba, 0x01e8b387, 0x01e9828a,
   0x01e6b581, 0x01e8b7af, 0x01e7b49a, 0x01e5b091,
   0x01e59c96, 0x01e5b1b1, 0x01e7b5b1, 0x01e68ea5,
   0x01e79fa5, 0x01e8bc83, 0x01e5b087, 0x01e7b584,
   0x01e8a68b, 0x01e8a888, 0x01e588a5, 0x01e5a5b9,
   0x01e6898b, 0x01e8a792, 0x01e69c9f, 0x01e6a0b9,
   0x01e8ab96, 0x01e9818b, 0x01e8beb2, 0x01e68c87,
   0x01e5b9be, 0x01e4b99d, 0x01e58d80, 0x01e5bcb7,
   0x01e694be, 0x01e6b1ba, 0x01e8a5bf, 0x01e8a2ab,
   0x01e5b9b9, 0x01e5819a, 0x01e5bf85, 0x01e688b0,
   0x01e58588, 0x01e59b9e, 0x01e58987, 0x01e4bbbb]

/-- Entries 256 to 319 of `chinese_traditional` (include/cardano/bip39_dictionary.hpp:2132-4180): 取 … 場 -/
def chineseTraditional4 : List Nat :=
  [0x01e58f96, 0x01e6939a, 0x01e89995, 0x01e99a8a,
   0x01e58d97, 0x01e7b5a6, 0x01e889b2, 0x01e58589,
   0x01e99680, 0x01e58db3, 0x01e4bf9d, 0x01e6b2bb,
   0x01e58c97, 0x01e980a0, 0x01e799be, 0x01e8a68f,
   0x01e786b1, 0x01e9a098, 0x01e4b883, 0x01e6b5b7,
   0x01e58fa3, 0x01e69db1, 0x01e5b08e, 0x01e599a8,
   0x01e5a393, 0x01e5bf97, 0x01e4b896, 0x01e98791,
   0x01e5a29e, 0x01e788ad, 0x01e6bf9f, 0x01e99a8e,
   0x01e6b2b9, 0x01e6809d, 0x01e8a193, 0x01e6a5b5,
   0x01e4baa4, 0x01e58f97, 0x01e881af, 0x01e4bb80,
   0x01e8aa8d, 0x01e585ad, 0x01e585b1, 0x01e6ac8a,
   0x01e694b6, 0x01e8ad89, 0x01e694b9, 0x01e6b885,
   0x01e7be8e, 0x01e5868d, 0x01e68ea1, 0x01e8bd89,
   0x01e69bb4, 0x01e596ae, 0x01e9a2a8, 0x01e58887,
   0x01e68993, 0x01e799bd, 0x01e69599, 0x01e9809f,
   0x01e88ab1, 0x01e5b8b6, 0x01e5ae89, 0x01e5a0b4]

/-- Entries 320 to 383 of `chinese_traditional` (include/cardano/bip39_dictionary.hpp:2132-4180): 身 … 算 -/
def chineseTraditional5 : List Nat :=
  [0x01e8baab, 0x01e8bb8a, 0x01e4be8b, 0x01e79c9f,
   0x01e58b99, 0x01e585b7, 0x01e890ac, 0x01e6af8f,
   0x01e79bae, 0x01e887b3, 0x01e98194, 0x01e8b5b0,
   0x01e7a98d, 0x01e7a4ba, 0x01e8adb0, 0x01e881b2,
   0x01e5a0b1, 0x01e9aca5, 0x01e5ae8c, 0x01e9a19e,
   0x01e585ab, 0x01e99ba2, 0x01e88faf, 0x01e5908d,
   0x01e7a2ba, 0x01e6898d, 0x01e7a791, 0x01e5bcb5,
   0x01e4bfa1, 0x01e9a6ac, 0x01e7af80, 0x01e8a9b1,
   0x01e7b1b3, 0x01e695b4, 0x01e7a9ba, 0x01e58583,
   0x01e6b381, 0x01e4bb8a, 0x01e99b86, 0x01e6baab,
   0x01e582b3, 0x01e59c9f, 0x01e8a8b1, 0x01e6ada5,
   0x01e7bea4, 0x01e5bba3, 0x01e79fb3, 0x01e8a898,
   0x01e99c80, 0x01e6aeb5, 0x01e7a094, 0x01e7958c,
   0x01e68b89, 0x01e69e97, 0x01e5be8b, 0x01e58fab,
   0x01e4b894, 0x01e7a9b6, 0x01e8a780, 0x01e8b68a,
   0x01e7b994, 0x01e8a39d, 0x01e5bdb1, 0x01e7ae97]

/-- Entries 384 to 447 of `chinese_traditional` (include/cardano/bip39_dictionary.hpp:2132-4180): 低 … 寫 -/
def chineseTraditional6 : List Nat :=
  [0x01e4bd8e, 0x01e68c81, 0x01e99fb3, 0x01e79cbe,
   0x01e69bb8, 0x01e5b883, 0x01e5a48d, 0x01e5aeb9,
   0x01e58592, 0x01e9a088, 0x01e99a9b, 0x01e59586,
   0x01e99d9e, 0x01e9a997, 0x01e980a3, 0x01e696b7,
   0x01e6b7b1, 0x01e99ba3, 0x01e8bf91, 0x01e7a4a6,
   0x01e58d83, 0x01e980b1, 0x01e5a794, 0x01e7b4a0,
   0x01e68a80, 0x01e58299, 0x01e58d8a, 0x01e8bea6,
   0x01e99d92, 0x01e79c81, 0x01e58897, 0x01e7bf92,
   0x01e99fbf, 0x01e7b484, 0x01e694af, 0x01e888ac,
   0x01e58fb2, 0x01e6849f, 0x01e58b9e, 0x01e4bebf,
   0x01e59c98, 0x01e5be80, 0x01e985b8, 0x01e6adb7,
   0x01e5b882, 0x01e5858b, 0x01e4bd95, 0x01e999a4,
   0x01e6b688, 0x01e6a78b, 0x01e5ba9c, 0x01e7a8b1,
   0x01e5a4aa, 0x01e6ba96, 0x01e7b2be, 0x01e580bc,
   0x01e8999f, 0x01e78e87, 0x01e6978f, 0x01e7b6ad,
   0x01e58a83, 0x01e981b8, 0x01e6a899, 0x01e5afab]

/-- Entries 448 to 511 of `chinese_traditional` (include/cardano/bip39_dictionary.hpp:2132-4180): 存 … 黃 -/
def chineseTraditional7 : List Nat :=
  [0x01e5ad98, 0x01e58099, 0x01e6af9b, 0x01e8a6aa,
   0x01e5bfab, 0x01e69588, 0x01e696af, 0x01e999a2,
   0x01e69fa5, 0x01e6b19f, 0x01e59e8b, 0x01e79cbc,
   0x01e78e8b, 0x01e68c89, 0x01e6a0bc, 0x01e9a48a,
   0x01e69893, 0x01e7bdae, 0x01e6b4be, 0x01e5b1a4,
   0x01e78987, 0x01e5a78b, 0x01e58dbb, 0x01e5b088,
   0x01e78b80, 0x01e882b2, 0x01e5bba0, 0x01e4baac,
   0x01e8ad98, 0x01e981a9, 0x01e5b1ac, 0x01e59c93,
   0x01e58c85, 0x01e781ab, 0x01e4bd8f, 0x01e8aabf,
   0x01e6bbbf, 0x01e7b8a3, 0x01e5b180, 0x01e785a7,
   0x01e58f83, 0x01e7b485, 0x01e7b4b0, 0x01e5bc95,
   0x01e881bd, 0x01e8a9b2, 0x01e990b5, 0x01e583b9,
   0x01e59ab4, 0x01e9a696, 0x01e5ba95, 0x01e6b6b2,
   0x01e5ae98, 0x01e5beb7, 0x01e99aa8, 0x01e79785,
   0x01e89887, 0x01e5a4b1, 0x01e788be, 0x01e6adbb,
   0x01e8ac9b, 0x01e9858d, 0x01e5a5b3, 0x01e9bb83]

/-- Entries 512 to 575 of `chinese_traditional` (include/cardano/bip39_dictionary.hpp:2132-4180): 推 … 章 -/
def chineseTraditional8 : List Nat :=
  [0x01e68ea8, 0x01e9a1af, 0x01e8ab87, 0x01e7bdaa,
   0x01e7a59e, 0x01e8979d, 0x01e591a2, 0x01e5b8ad,
   0x01e590ab, 0x01e4bc81, 0x01e69c9b, 0x01e5af86,
   0x01e689b9, 0x01e7879f, 0x01e9a085, 0x01e998b2,
   0x01e88889, 0x01e79083, 0x01e88bb1, 0x01e6b0a7,
   0x01e58ba2, 0x01e5918a, 0x01e69d8e, 0x01e58fb0,
   0x01e890bd, 0x01e69ca8, 0x01e5b9ab, 0x01e8bcaa,
   0x01e7a0b4, 0x01e4ba9e, 0x01e5b8ab, 0x01e59c8d,
   0x01e6b3a8, 0x01e981a0, 0x01e5ad97, 0x01e69d90,
   0x01e68e92, 0x01e4be9b, 0x01e6b2b3, 0x01e6858b,
   0x01e5b081, 0x01e58fa6, 0x01e696bd, 0x01e6b89b,
   0x01e6a8b9, 0x01e6bab6, 0x01e6808e, 0x01e6ada2,
   0x01e6a188, 0x01e8a880, 0x01e5a3ab, 0x01e59d87,
   0x01e6ada6, 0x01e59bba, 0x01e89189, 0x01e9ad9a,
   0x01e6b3a2, 0x01e8a696, 0x01e58385, 0x01e8b2bb,
   0x01e7b78a, 0x01e6849b, 0x01e5b7a6, 0x01e7aba0]

/-- Entries 576 to 639 of `chinese_traditional` (include/cardano/bip39_dictionary.hpp:2132-4180): 早 … 互 -/
def chineseTraditional9 : List Nat :=
  [0x01e697a9, 0x01e69c9d, 0x01e5aeb3, 0x01e7ba8c,
   0x01e8bc95, 0x01e69c8d, 0x01e8a9a6, 0x01e9a39f,
   0x01e58585, 0x01e585b5, 0x01e6ba90, 0x01e588a4,
   0x01e8adb7, 0x01e58fb8, 0x01e8b6b3, 0x01e69f90,
   0x01e7b7b4, 0x01e5b7ae, 0x01e887b4, 0x01e69dbf,
   0x01e794b0, 0x01e9998d, 0x01e9bb91, 0x01e78aaf,
   0x01e8b2a0, 0x01e6938a, 0x01e88c83, 0x01e7b9bc,
   0x01e88888, 0x01e4bcbc, 0x01e9a498, 0x01e5a085,
   0x01e69bb2, 0x01e8bcb8, 0x01e4bfae, 0x01e69585,
   0x01e59f8e, 0x01e5a4ab, 0x01e5a4a0, 0x01e98081,
   0x01e7ad86, 0x01e888b9, 0x01e4bd94, 0x01e58fb3,
   0x01e8b2a1, 0x01e59083, 0x01e5af8c, 0x01e698a5,
   0x01e881b7, 0x01e8a6ba, 0x01e6bca2, 0x01e795ab,
   0x01e58a9f, 0x01e5b7b4, 0x01e8b79f, 0x01e99b96,
   0x01e99b9c, 0x01e9a39b, 0x01e6aaa2, 0x01e590b8,
   0x01e58aa9, 0x01e69887, 0x01e999bd, 0x01e4ba92]

/-- Entries 640 to 703 of `chinese_traditional` (include/cardano/bip39_dictionary.hpp:2132-4180): 初 … 絕 -/
def chineseTraditional10 : List Nat :=
  [0x01e5889d, 0x01e589b5, 0x01e68a97, 0x01e88083,
   0x01e68a95, 0x01e5a39e, 0x01e7ad96, 0x01e58fa4,
   0x01e5be91, 0x01e68f9b, 0x01e69caa, 0x01e8b791,
   0x01e79599, 0x01e98bbc, 0x01e69bbe, 0x01e7abaf,
   0x01e8b2ac, 0x01e7ab99, 0x01e7b0a1, 0x01e8bfb0,
   0x01e98ca2, 0x01e589af, 0x01e79ba1, 0x01e5b89d,
   0x01e5b084, 0x01e88d89, 0x01e8a19d, 0x01e689bf,
   0x01e78da8, 0x01e4bba4, 0x01e99990, 0x01e998bf,
   0x01e5aea3, 0x01e792b0, 0x01e99b99, 0x01e8ab8b,
   0x01e8b685, 0x01e5beae, 0x01e8ae93, 0x01e68ea7,
   0x01e5b79e, 0x01e889af, 0x01e8bbb8, 0x01e689be,
   0x01e590a6, 0x01e7b480, 0x01e79b8a, 0x01e4be9d,
   0x01e584aa, 0x01e9a082, 0x01e7a48e, 0x01e8bc89,
   0x01e58092, 0x01e688bf, 0x01e7aa81, 0x01e59d90,
   0x01e7b289, 0x01e695b5, 0x01e795a5, 0x01e5aea2,
   0x01e8a281, 0x01e586b7, 0x01e58b9d, 0x01e7b595]

/-- Entries 704 to 767 of `chinese_traditional` (include/cardano/bip39_dictionary.hpp:2132-4180): 析 … 舊 -/
def chineseTraditional11 : List Nat :=
  [0x01e69e90, 0x01e5a18a, 0x01e58a91, 0x01e6b8ac,
   0x01e7b5b2, 0x01e58d94, 0x01e8a8b4, 0x01e5bfb5,
   0x01e999b3, 0x01e4bb8d, 0x01e7be85, 0x01e9b9bd,
   0x01e58f8b, 0x01e6b48b, 0x01e98caf, 0x01e88ba6,
   0x01e5a49c, 0x01e58891, 0x01e7a7bb, 0x01e9a0bb,
   0x01e98090, 0x01e99da0, 0x01e6b7b7, 0x01e6af8d,
   0x01e79fad, 0x01e79aae, 0x01e7b582, 0x01e8819a,
   0x01e6b1bd, 0x01e69d91, 0x01e99bb2, 0x01e593aa,
   0x01e697a2, 0x01e8b79d, 0x01e8a19b, 0x01e5819c,
   0x01e78388, 0x01e5a4ae, 0x01e5af9f, 0x01e78792,
   0x01e8bf85, 0x01e5a283, 0x01e88ba5, 0x01e58db0,
   0x01e6b4b2, 0x01e588bb, 0x01e68bac, 0x01e6bf80,
   0x01e5ad94, 0x01e6909e, 0x01e7949a, 0x01e5aea4,
   0x01e5be85, 0x01e6a0b8, 0x01e6a0a1, 0x01e695a3,
   0x01e4beb5, 0x01e590a7, 0x01e794b2, 0x01e9818a,
   0x01e4b985, 0x01e88f9c, 0x01e591b3, 0x01e8888a]

/-- Entries 768 to 831 of `chinese_traditional` (include/cardano/bip39_dictionary.hpp:2132-4180): 模 … 亂 -/
def chineseTraditional12 : List Nat :=
  [0x01e6a8a1, 0x01e6b996, 0x01e8b2a8, 0x01e6908d,
   0x01e9a090, 0x01e998bb, 0x01e6afab, 0x01e699ae,
   0x01e7a9a9, 0x01e4b999, 0x01e5aabd, 0x01e6a48d,
   0x01e681af, 0x01e693b4, 0x01e98a80, 0x01e8aa9e,
   0x01e68fae, 0x01e98592, 0x01e5ae88, 0x01e68bbf,
   0x01e5ba8f, 0x01e7b499, 0x01e986ab, 0x01e7bcba,
   0x01e99ba8, 0x01e5978e, 0x01e9879d, 0x01e58a89,
   0x01e5958a, 0x01e680a5, 0x01e594b1, 0x01e8aaa4,
   0x01e8a893, 0x01e9a198, 0x01e5afa9, 0x01e99984,
   0x01e78db2, 0x01e88cb6, 0x01e9aeae, 0x01e7b3a7,
   0x01e696a4, 0x01e5ada9, 0x01e884ab, 0x01e7a1ab,
   0x01e882a5, 0x01e59684, 0x01e9be8d, 0x01e6bc94,
   0x01e788b6, 0x01e6bcb8, 0x01e8a180, 0x01e6ada1,
   0x01e6a2b0, 0x01e68e8c, 0x01e6ad8c, 0x01e6b299,
   0x01e5899b, 0x01e694bb, 0x01e8ac82, 0x01e79bbe,
   0x01e8a88e, 0x01e6999a, 0x01e7b292, 0x01e4ba82]

/-- Entries 832 to 895 of `chinese_traditional` (include/cardano/bip39_dictionary.hpp:2132-4180): 燃 … 衣 -/
def chineseTraditional13 : List Nat :=
  [0x01e78783, 0x01e79f9b, 0x01e4b98e, 0x01e6aeba,
   0x01e897a5, 0x01e5afa7, 0x01e9adaf, 0x01e8b2b4,
   0x01e99098, 0x01e785a4, 0x01e8ae80, 0x01e78fad,
   0x01e4bcaf, 0x01e9a699, 0x01e4bb8b, 0x01e8bfab,
   0x01e58fa5, 0x01e8b190, 0x01e59fb9, 0x01e68fa1,
   0x01e898ad, 0x01e69394, 0x01e5bca6, 0x01e89b8b,
   0x01e6b289, 0x01e58187, 0x01e7a9bf, 0x01e59fb7,
   0x01e7ad94, 0x01e6a882, 0x01e8aab0, 0x01e9a086,
   0x01e78599, 0x01e7b8ae, 0x01e5beb5, 0x01e88789,
   0x01e5969c, 0x01e69dbe, 0x01e885b3, 0x01e59bb0,
   0x01e795b0, 0x01e5858d, 0x01e8838c, 0x01e6989f,
   0x01e7a68f, 0x01e8b2b7, 0x01e69f93, 0x01e4ba95,
   0x01e6a682, 0x01e685a2, 0x01e68095, 0x01e7a381,
   0x01e5808d, 0x01e7a596, 0x01e79a87, 0x01e4bf83,
   0x01e99d9c, 0x01e8a39c, 0x01e8a995, 0x01e7bfbb,
   0x01e88289, 0x01e8b890, 0x01e5b0bc, 0x01e8a1a3]

/-- Entries 896 to 959 of `chinese_traditional` (include/cardano/bip39_dictionary.hpp:2132-4180): 寬 … 凱 -/
def chineseTraditional14 : List Nat :=
  [0x01e5afac, 0x01e68f9a, 0x01e6a389, 0x01e5b88c,
   0x01e582b7, 0x01e6938d, 0x01e59e82, 0x01e7a78b,
   0x01e5ae9c, 0x01e6b0ab, 0x01e5a597, 0x01e79da3,
   0x01e68caf, 0x01e69eb6, 0x01e4baae, 0x01e69cab,
   0x01e686b2, 0x01e685b6, 0x01e7b7a8, 0x01e7899b,
   0x01e8a7b8, 0x01e698a0, 0x01e99bb7, 0x01e98ab7,
   0x01e8a9a9, 0x01e5baa7, 0x01e5b185, 0x01e68a93,
   0x01e8a382, 0x01e8839e, 0x01e591bc, 0x01e5a898,
   0x01e699af, 0x01e5a881, 0x01e7b6a0, 0x01e699b6,
   0x01e58e9a, 0x01e79b9f, 0x01e8a1a1, 0x01e99b9e,
   0x01e5adab, 0x01e5bbb6, 0x01e58db1, 0x01e886a0,
   0x01e5b18b, 0x01e98489, 0x01e887a8, 0x01e999b8,
   0x01e9a1a7, 0x01e68e89, 0x01e59180, 0x01e78788,
   0x01e6adb2, 0x01e68eaa, 0x01e69d9f, 0x01e88090,
   0x01e58a87, 0x01e78e89, 0x01e8b699, 0x01e8b7b3,
   0x01e593a5, 0x01e5ada3, 0x01e8aab2, 0x01e587b1]

/-- Entries 960 to 1023 of `chinese_traditional` (include/cardano/bip39_dictionary.hpp:2132-4180): 胡 … 竟 -/
def chineseTraditional15 : List Nat :=
  [0x01e883a1, 0x01e9a18d, 0x01e6acbe, 0x01e7b4b9,
   0x01e58db7, 0x01e9bd8a, 0x01e58189, 0x01e892b8,
   0x01e6ae96, 0x01e6b0b8, 0x01e5ae97, 0x01e88b97,
   0x01e5b79d, 0x01e78890, 0x01e5b2a9, 0x01e5bcb1,
   0x01e99bb6, 0x01e6a58a, 0x01e5a58f, 0x01e6b2bf,
   0x01e99cb2, 0x01e6a1bf, 0x01e68ea2, 0x01e6bb91,
   0x01e98eae, 0x01e9a3af, 0x01e6bf83, 0x01e888aa,
   0x01e687b7, 0x01e8b695, 0x01e5baab, 0x01e5a5aa,
   0x01e4bc8a, 0x01e99d88, 0x01e7a885, 0x01e98094,
   0x01e6bb85, 0x01e8b3bd, 0x01e6adb8, 0x01e58fac,
   0x01e9bc93, 0x01e692ad, 0x01e79ba4, 0x01e8a381,
   0x01e99aaa, 0x01e5bab7, 0x01e594af, 0x01e98c84,
   0x01e88f8c, 0x01e7b494, 0x01e5809f, 0x01e7b396,
   0x01e8938b, 0x01e6a9ab, 0x01e7aca6, 0x01e7a781,
   0x01e58aaa, 0x01e5a082, 0x01e59f9f, 0x01e6a78d,
   0x01e6bda4, 0x01e5b985, 0x01e59388, 0x01e7ab9f]

/-- Entries 1024 to 1087 of `chinese_traditional` (include/cardano/bip39_dictionary.hpp:2132-4180): 熟 … 亦 -/
def chineseTraditional16 : List Nat :=
  [0x01e7869f, 0x01e89fb2, 0x01e6bea4, 0x01e885a6,
   0x01e5a3a4, 0x01e7a2b3, 0x01e6ad90, 0x01e9818d,
   0x01e581b4, 0x01e5afa8, 0x01e695a2, 0x01e5beb9,
   0x01e685ae, 0x01e6969c, 0x01e89684, 0x01e5baad,
   0x01e7b48d, 0x01e5bd88, 0x01e9a3bc, 0x01e4bcb8,
   0x01e68a98, 0x01e9baa5, 0x01e6bf95, 0x01e69a97,
   0x01e88db7, 0x01e793a6, 0x01e5a19e, 0x01e5ba8a,
   0x01e7af89, 0x01e683a1, 0x01e688b6, 0x01e8a8aa,
   0x01e5a194, 0x01e5a587, 0x01e9808f, 0x01e6a281,
   0x01e58880, 0x01e6978b, 0x01e8b7a1, 0x01e58da1,
   0x01e6b0af, 0x01e98187, 0x01e4bbbd, 0x01e6af92,
   0x01e6b3a5, 0x01e98080, 0x01e6b497, 0x01e693ba,
   0x01e781b0, 0x01e5bda9, 0x01e8b3a3, 0x01e88097,
   0x01e5a48f, 0x01e69387, 0x01e5bf99, 0x01e98a85,
   0x01e78dbb, 0x01e7a1ac, 0x01e4ba88, 0x01e7b981,
   0x01e59c88, 0x01e99baa, 0x01e587bd, 0x01e4baa6]

/-- Entries 1088 to 1151 of `chinese_traditional` (include/cardano/bip39_dictionary.hpp:2132-4180): 抽 … 頓 -/
def chineseTraditional17 : List Nat :=
  [0x01e68abd, 0x01e7af87, 0x01e999a3, 0x01e999b0,
   0x01e4b881, 0x01e5b0ba, 0x01e8bfbd, 0x01e5a086,
   0x01e99b84, 0x01e8bf8e, 0x01e6b39b, 0x01e788b8,
   0x01e6a893, 0x01e981bf, 0x01e8ac80, 0x01e599b8,
   0x01e9878e, 0x01e8b1ac, 0x01e69797, 0x01e7b4af,
   0x01e5818f, 0x01e585b8, 0x01e9a4a8, 0x01e7b4a2,
   0x01e7a7a6, 0x01e88482, 0x01e6bdae, 0x01e788ba,
   0x01e8b186, 0x01e5bfbd, 0x01e68998, 0x01e9a99a,
   0x01e5a191, 0x01e981ba, 0x01e68488, 0x01e69cb1,
   0x01e69bbf, 0x01e7ba96, 0x01e7b297, 0x01e582be,
   0x01e5b09a, 0x01e7979b, 0x01e6a59a, 0x01e8ac9d,
   0x01e5a5ae, 0x01e8b3bc, 0x01e7a3a8, 0x01e5909b,
   0x01e6b1a0, 0x01e69781, 0x01e7a28e, 0x01e9aaa8,
   0x01e79ba3, 0x01e68d95, 0x01e5bc9f, 0x01e69ab4,
   0x01e589b2, 0x01e8b2ab, 0x01e6ae8a, 0x01e9878b,
   0x01e8a99e, 0x01e4baa1, 0x01e5a381, 0x01e9a093]

/-- Entries 1152 to 1215 of `chinese_traditional` (include/cardano/bip39_dictionary.hpp:2132-4180): 寶 … 筒 -/
def chineseTraditional18 : List Nat :=
  [0x01e5afb6, 0x01e58d88, 0x01e5a1b5, 0x01e8819e,
   0x01e68fad, 0x01e782ae, 0x01e6ae98, 0x01e586ac,
   0x01e6a98b, 0x01e5a9a6, 0x01e8ada6, 0x01e7b69c,
   0x01e68b9b, 0x01e590b3, 0x01e4bb98, 0x01e6b5ae,
   0x01e981ad, 0x01e5be90, 0x01e682a8, 0x01e69096,
   0x01e8b0b7, 0x01e8b48a, 0x01e7aeb1, 0x01e99a94,
   0x01e8a882, 0x01e794b7, 0x01e590b9, 0x01e59c92,
   0x01e7b49b, 0x01e59490, 0x01e69597, 0x01e5ae8b,
   0x01e78ebb, 0x01e5b7a8, 0x01e88095, 0x01e59da6,
   0x01e6a6ae, 0x01e99689, 0x01e781a3, 0x01e98db5,
   0x01e587a1, 0x01e9a790, 0x01e98d8b, 0x01e69591,
   0x01e681a9, 0x01e5899d, 0x01e5879d, 0x01e9b9bc,
   0x01e9bd92, 0x01e688aa, 0x01e78589, 0x01e9babb,
   0x01e7b4a1, 0x01e7a681, 0x01e5bba2, 0x01e79b9b,
   0x01e78988, 0x01e7b7a9, 0x01e6b7a8, 0x01e79d9b,
   0x01e6988c, 0x01e5a99a, 0x01e6b689, 0x01e7ad92]

/-- Entries 1216 to 1279 of `chinese_traditional` (include/cardano/bip39_dictionary.hpp:2132-4180): 嘴 … 冰 -/
def chineseTraditional19 : List Nat :=
  [0x01e598b4, 0x01e68f92, 0x01e5b2b8, 0x01e69c97,
   0x01e88e8a, 0x01e8a197, 0x01e8978f, 0x01e5a791,
   0x01e8b2bf, 0x01e88590, 0x01e5a5b4, 0x01e595a6,
   0x01e685a3, 0x01e4b998, 0x01e5a4a5, 0x01e681a2,
   0x01e58bbb, 0x01e7b497, 0x01e6898e, 0x01e8beaf,
   0x01e880b3, 0x01e5bdaa, 0x01e887a3, 0x01e58484,
   0x01e79283, 0x01e68ab5, 0x01e88488, 0x01e7a780,
   0x01e896a9, 0x01e4bf84, 0x01e7b6b2, 0x01e8889e,
   0x01e5ba97, 0x01e599b4, 0x01e7b8b1, 0x01e5afb8,
   0x01e6b197, 0x01e68e9b, 0x01e6b4aa, 0x01e8b380,
   0x01e99683, 0x01e69fac, 0x01e78886, 0x01e783af,
   0x01e6b4a5, 0x01e7a8bb, 0x01e78986, 0x01e8bb9f,
   0x01e58b87, 0x01e5838f, 0x01e6bbbe, 0x01e58e98,
   0x01e89299, 0x01e88ab3, 0x01e882af, 0x01e59da1,
   0x01e69fb1, 0x01e79baa, 0x01e885bf, 0x01e58480,
   0x01e69785, 0x01e5b0be, 0x01e8bb8b, 0x01e586b0]

/-- Entries 1280 to 1343 of `chinese_traditional` (include/cardano/bip39_dictionary.hpp:2132-4180): 貢 … 壯 -/
def chineseTraditional20 : List Nat :=
  [0x01e8b2a2, 0x01e799bb, 0x01e9bb8e, 0x01e5898a,
   0x01e991bd, 0x01e58b92, 0x01e98083, 0x01e99a9c,
   0x01e6b0a8, 0x01e983ad, 0x01e5b3b0, 0x01e5b9a3,
   0x01e6b8af, 0x01e4bc8f, 0x01e8bb8c, 0x01e7959d,
   0x01e795a2, 0x01e693a6, 0x01e88eab, 0x01e588ba,
   0x01e6b5aa, 0x01e7a798, 0x01e68fb4, 0x01e6a0aa,
   0x01e581a5, 0x01e594ae, 0x01e882a1, 0x01e5b3b6,
   0x01e79498, 0x01e6b3a1, 0x01e79da1, 0x01e7aba5,
   0x01e99184, 0x01e6b9af, 0x01e996a5, 0x01e4bc91,
   0x01e58caf, 0x01e8888d, 0x01e789a7, 0x01e7b99e,
   0x01e782b8, 0x01e593b2, 0x01e7a3b7, 0x01e7b8be,
   0x01e69c8b, 0x01e6b7a1, 0x01e5b096, 0x01e5959f,
   0x01e999b7, 0x01e69fb4, 0x01e59188, 0x01e5be92,
   0x01e9a18f, 0x01e6b79a, 0x01e7a88d, 0x01e5bf98,
   0x01e6b3b5, 0x01e8978d, 0x01e68b96, 0x01e6b49e,
   0x01e68e88, 0x01e98fa1, 0x01e8be9b, 0x01e5a3af]

/-- Entries 1344 to 1407 of `chinese_traditional` (include/cardano/bip39_dictionary.hpp:2132-4180): 鋒 … 縫 -/
def chineseTraditional21 : List Nat :=
  [0x01e98b92, 0x01e8b2a7, 0x01e8999b, 0x01e5bd8e,
   0x01e691a9, 0x01e6b3b0, 0x01e5b9bc, 0x01e5bbb7,
   0x01e5b08a, 0x01e7aa97, 0x01e7b6b1, 0x01e5bc84,
   0x01e99ab8, 0x01e79691, 0x01e6b08f, 0x01e5aeae,
   0x01e5a790, 0x01e99c87, 0x01e7919e, 0x01e680aa,
   0x01e5b0a4, 0x01e790b4, 0x01e5beaa, 0x01e68f8f,
   0x01e8869c, 0x01e98195, 0x01e5a4be, 0x01e885b0,
   0x01e7b7a3, 0x01e78fa0, 0x01e7aaae, 0x01e6a3ae,
   0x01e69e9d, 0x01e7abb9, 0x01e6ba9d, 0x01e582ac,
   0x01e7b9a9, 0x01e686b6, 0x01e982a6, 0x01e589a9,
   0x01e5b9b8, 0x01e6bcbf, 0x01e6ac84, 0x01e69381,
   0x01e78999, 0x01e8b2af, 0x01e7a6ae, 0x01e6bfbe,
   0x01e98889, 0x01e7b48b, 0x01e7bdb7, 0x01e68b8d,
   0x01e592b1, 0x01e5968a, 0x01e8a296, 0x01e59f83,
   0x01e58ba4, 0x01e7bdb0, 0x01e784a6, 0x01e6bd9b,
   0x01e4bc8d, 0x01e5a2a8, 0x01e6acb2, 0x01e7b8ab]

/-- Entries 1408 to 1471 of `chinese_traditional` (include/cardano/bip39_dictionary.hpp:2132-4180): 姓 … 珍 -/
def chineseTraditional22 : List Nat :=
  [0x01e5a793, 0x01e5888a, 0x01e9a3bd, 0x01e4bbbf,
   0x01e78d8e, 0x01e98b81, 0x01e9acbc, 0x01e9ba97,
   0x01e8b7a8, 0x01e9bb98, 0x01e68c96, 0x01e98f88,
   0x01e68e83, 0x01e5969d, 0x01e8a28b, 0x01e782ad,
   0x01e6b1a1, 0x01e5b995, 0x01e8abb8, 0x01e5bca7,
   0x01e58bb5, 0x01e6a285, 0x01e5a5b6, 0x01e6bd94,
   0x01e781bd, 0x01e8889f, 0x01e99191, 0x01e88baf,
   0x01e8a89f, 0x01e68ab1, 0x01e6af80, 0x01e68782,
   0x01e5af92, 0x01e699ba, 0x01e59f94, 0x01e5af84,
   0x01e5b186, 0x01e8ba8d, 0x01e6b8a1, 0x01e68c91,
   0x01e4b8b9, 0x01e889b1, 0x01e8b29d, 0x01e7a2b0,
   0x01e68b94, 0x01e788b9, 0x01e688b4, 0x01e7a2bc,
   0x01e5a4a2, 0x01e88abd, 0x01e78694, 0x01e8b5a4,
   0x01e6bc81, 0x01e593ad, 0x01e695ac, 0x01e9a186,
   0x01e5a594, 0x01e9899b, 0x01e4bbb2, 0x01e8998e,
   0x01e7a880, 0x01e5a6b9, 0x01e4b98f, 0x01e78f8d]

/-- Entries 1472 to 1535 of `chinese_traditional` (include/cardano/bip39_dictionary.hpp:2132-4180): 申 … 紫 -/
def chineseTraditional23 : List Nat :=
  [0x01e794b3, 0x01e6a18c, 0x01e981b5, 0x01e58581,
   0x01e99a86, 0x01e89eba, 0x01e58089, 0x01e9ad8f,
   0x01e98ab3, 0x01e69b89, 0x01e6b0ae, 0x01e585bc,
   0x01e99ab1, 0x01e7a499, 0x01e8b5ab, 0x01e692a5,
   0x01e5bfa0, 0x01e88285, 0x01e7bcb8, 0x01e789bd,
   0x01e690b6, 0x01e58d9a, 0x01e5b7a7, 0x01e6aebc,
   0x01e58584, 0x01e69d9c, 0x01e8a88a, 0x01e8aaa0,
   0x01e7a2a7, 0x01e7a5a5, 0x01e69faf, 0x01e9a081,
   0x01e5b7a1, 0x01e79fa9, 0x01e682b2, 0x01e7818c,
   0x01e9bda1, 0x01e580ab, 0x01e7a5a8, 0x01e5b08b,
   0x01e6a182, 0x01e98baa, 0x01e88196, 0x01e68190,
   0x01e681b0, 0x01e984ad, 0x01e8b6a3, 0x01e68aac,
   0x01e88d92, 0x01e9a8b0, 0x01e8b2bc, 0x01e69f94,
   0x01e6bbb4, 0x01e78c9b, 0x01e9978a, 0x01e8bc9b,
   0x01e5a6bb, 0x01e5a1ab, 0x01e692a4, 0x01e584b2,
   0x01e7b0bd, 0x01e9aca7, 0x01e693be, 0x01e7b4ab]

/-- Entries 1536 to 1599 of `chinese_traditional` (include/cardano/bip39_dictionary.hpp:2132-4180): 砂 … 肩 -/
def chineseTraditional24 : List Nat :=
  [0x01e7a082, 0x01e9819e, 0x01e688b2, 0x01e5908a,
   0x01e999b6, 0x01e4bc90, 0x01e9a4b5, 0x01e79982,
   0x01e793b6, 0x01e5a986, 0x01e692ab, 0x01e88782,
   0x01e691b8, 0x01e5bf8d, 0x01e89da6, 0x01e8a09f,
   0x01e984b0, 0x01e883b8, 0x01e99e8f, 0x01e693a0,
   0x01e581b6, 0x01e6a384, 0x01e6a7bd, 0x01e58b81,
   0x01e4b9b3, 0x01e984a7, 0x01e59089, 0x01e4bb81,
   0x01e7889b, 0x01e7a39a, 0x01e7a79f, 0x01e7838f,
   0x01e889a6, 0x01e4bcb4, 0x01e7939c, 0x01e6b7ba,
   0x01e4b899, 0x01e69aab, 0x01e787a5, 0x01e6a9a1,
   0x01e69fb3, 0x01e8bfb7, 0x01e69a96, 0x01e7898c,
   0x01e7a7a7, 0x01e886bd, 0x01e8a9b3, 0x01e7b0a7,
   0x01e8b88f, 0x01e793b7, 0x01e8ad9c, 0x01e59186,
   0x01e8b393, 0x01e7b38a, 0x01e6b49b, 0x01e8bc9d,
   0x01e686a4, 0x01e7abb6, 0x01e99a99, 0x01e68092,
   0x01e7b298, 0x01e4b983, 0x01e7b792, 0x01e882a9]

/-- Entries 1600 to 1663 of `chinese_traditional` (include/cardano/bip39_dictionary.hpp:2132-4180): 籍 … 叛 -/
def chineseTraditional25 : List Nat :=
  [0x01e7b18d, 0x01e6958f, 0x01e5a197, 0x01e78699,
   0x01e79a86, 0x01e581b5, 0x01e687b8, 0x01e68e98,
   0x01e4baab, 0x01e7b3be, 0x01e98692, 0x01e78b82,
   0x01e98e96, 0x01e6b780, 0x01e681a8, 0x01e789b2,
   0x01e99cb8, 0x01e788ac, 0x01e8b39e, 0x01e98086,
   0x01e78ea9, 0x01e999b5, 0x01e7a59d, 0x01e7a792,
   0x01e6b599, 0x01e8b28c, 0x01e5bdb9, 0x01e5bdbc,
   0x01e68289, 0x01e9b4a8, 0x01e8b6a8, 0x01e9b3b3,
   0x01e699a8, 0x01e7959c, 0x01e8bca9, 0x01e7a7a9,
   0x01e58db5, 0x01e7bdb2, 0x01e6a2af, 0x01e7828e,
   0x01e78198, 0x01e6a38b, 0x01e9a985, 0x01e7afa9,
   0x01e5b3bd, 0x01e58692, 0x01e595a5, 0x01e5a3bd,
   0x01e8adaf, 0x01e6b5b8, 0x01e6b389, 0x01e5b8bd,
   0x01e981b2, 0x01e79fbd, 0x01e79686, 0x01e8b2b8,
   0x01e6bc8f, 0x01e7a8bf, 0x01e586a0, 0x01e5aba9,
   0x01e88485, 0x01e88aaf, 0x01e789a2, 0x01e58f9b]

/-- Entries 1664 to 1727 of `chinese_traditional` (include/cardano/bip39_dictionary.hpp:2132-4180): 蝕 … 估 -/
def chineseTraditional26 : List Nat :=
  [0x01e89d95, 0x01e5a5a7, 0x01e9b3b4, 0x01e5b6ba,
   0x01e7be8a, 0x01e68691, 0x01e4b8b2, 0x01e5a198,
   0x01e7b9aa, 0x01e985b5, 0x01e89e8d, 0x01e79b86,
   0x01e98cab, 0x01e5bb9f, 0x01e7b18c, 0x01e5878d,
   0x01e8bc94, 0x01e6949d, 0x01e8a5b2, 0x01e7ad8b,
   0x01e68b92, 0x01e5839a, 0x01e697b1, 0x01e98980,
   0x01e9b3a5, 0x01e6bc86, 0x01e6b288, 0x01e79c89,
   0x01e7968f, 0x01e6b7bb, 0x01e6a392, 0x01e7a997,
   0x01e7a19d, 0x01e99f93, 0x01e980bc, 0x01e689ad,
   0x01e58391, 0x01e6b6bc, 0x01e68cba, 0x01e7a297,
   0x01e6a0bd, 0x01e78292, 0x01e69daf, 0x01e682a3,
   0x01e9a4be, 0x01e58bb8, 0x01e8b1aa, 0x01e981bc,
   0x01e58b83, 0x01e9b4bb, 0x01e697a6, 0x01e5908f,
   0x01e68b9c, 0x01e78b97, 0x01e59f8b, 0x01e8bca5,
   0x01e68ea9, 0x01e9a3b2, 0x01e690ac, 0x01e7bdb5,
   0x01e8bead, 0x01e58bbe, 0x01e689a3, 0x01e4bcb0]

/-- Entries 1728 to 1791 of `chinese_traditional` (include/cardano/bip39_dictionary.hpp:2132-4180): 蔣 … 桑 -/
def chineseTraditional27 : List Nat :=
  [0x01e894a3, 0x01e7b5a8, 0x01e99ca7, 0x01e4b888,
   0x01e69cb5, 0x01e5a786, 0x01e693ac, 0x01e5ae87,
   0x01e8bcaf, 0x01e9999d, 0x01e99b95, 0x01e5849f,
   0x01e89384, 0x01e5b487, 0x01e589aa, 0x01e580a1,
   0x01e5bbb3, 0x01e592ac, 0x01e9a79b, 0x01e896af,
   0x01e588b7, 0x01e696a5, 0x01e795aa, 0x01e8b3a6,
   0x01e5a589, 0x01e4bd9b, 0x01e6be86, 0x01e6bcab,
   0x01e69bbc, 0x01e68987, 0x01e988a3, 0x01e6a183,
   0x01e689b6, 0x01e4bb94, 0x01e8bf94, 0x01e4bf97,
   0x01e899a7, 0x01e88594, 0x01e99e8b, 0x01e6a3b1,
   0x01e8a686, 0x01e6a186, 0x01e68284, 0x01e58f94,
   0x01e6929e, 0x01e9a899, 0x01e58b98, 0x01e697ba,
   0x01e6b2b8, 0x01e5ada4, 0x01e59090, 0x01e5ad9f,
   0x01e6b8a0, 0x01e5b188, 0x01e796be, 0x01e5a699,
   0x01e6839c, 0x01e4bbb0, 0x01e78ba0, 0x01e884b9,
   0x01e8aba7, 0x01e68b8b, 0x01e9bbb4, 0x01e6a191]

/-- Entries 1792 to 1855 of `chinese_traditional` (include/cardano/bip39_dictionary.hpp:2132-4180): 崗 … 錦 -/
def chineseTraditional28 : List Nat :=
  [0x01e5b497, 0x01e5989b, 0x01e8a1b0, 0x01e79b9c,
   0x01e6bbb2, 0x01e8879f, 0x01e8b3b4, 0x01e6b9a7,
   0x01e7949c, 0x01e69bb9, 0x01e996b1, 0x01e8828c,
   0x01e593a9, 0x01e58eb2, 0x01e783b4, 0x01e7b7af,
   0x01e6af85, 0x01e698a8, 0x01e581bd, 0x01e79787,
   0x01e785ae, 0x01e59886, 0x01e98798, 0x01e690ad,
   0x01e88e96, 0x01e7b1a0, 0x01e985b7, 0x01e581b7,
   0x01e5bc93, 0x01e98c90, 0x01e68186, 0x01e58291,
   0x01e59d91, 0x01e9bcbb, 0x01e7bfbc, 0x01e7b6b8,
   0x01e69598, 0x01e78d84, 0x01e980ae, 0x01e7bd90,
   0x01e7b5a1, 0x01e6a39a, 0x01e68a91, 0x01e886a8,
   0x01e894ac, 0x01e5afba, 0x01e9a99f, 0x01e7a986,
   0x01e586b6, 0x01e69eaf, 0x01e5868a, 0x01e5b18d,
   0x01e587b8, 0x01e7b4b3, 0x01e59daf, 0x01e78aa7,
   0x01e784b0, 0x01e8bd9f, 0x01e6aca3, 0x01e69989,
   0x01e798a6, 0x01e7a6a6, 0x01e98ca0, 0x01e98ca6]

/-- Entries 1856 to 1919 of `chinese_traditional` (include/cardano/bip39_dictionary.hpp:2132-4180): 喪 … 賢 -/
def chineseTraditional29 : List Nat :=
  [0x01e596aa, 0x01e697ac, 0x01e98d9b, 0x01e5a39f,
   0x01e6909c, 0x01e692b2, 0x01e98280, 0x01e4baad,
   0x01e985af, 0x01e98281, 0x01e88892, 0x01e88486,
   0x01e985b6, 0x01e99692, 0x01e68682, 0x01e9859a,
   0x01e9a091, 0x01e7bebd, 0x01e6bcb2, 0x01e58db8,
   0x01e4bb97, 0x01e999aa, 0x01e997a2, 0x01e687b2,
   0x01e69dad, 0x01e5a79a, 0x01e8829a, 0x01e68d89,
   0x01e9a384, 0x01e6bc82, 0x01e69886, 0x01e6acba,
   0x01e590be, 0x01e9838e, 0x01e783b7, 0x01e6b181,
   0x01e591b5, 0x01e9a3be, 0x01e895ad, 0x01e99b85,
   0x01e983b5, 0x01e981b7, 0x01e78795, 0x01e69292,
   0x01e5a7bb, 0x01e8b5b4, 0x01e5aeb4, 0x01e785a9,
   0x01e582b5, 0x01e5b8b3, 0x01e69691, 0x01e988b4,
   0x01e697a8, 0x01e98687, 0x01e891a3, 0x01e9a485,
   0x01e99b9b, 0x01e5a7bf, 0x01e68b8c, 0x01e58285,
   0x01e885b9, 0x01e5a6a5, 0x01e68f89, 0x01e8b3a2]

/-- Entries 1920 to 1983 of `chinese_traditional` (include/cardano/bip39_dictionary.hpp:2132-4180): 拆 … 倆 -/
def chineseTraditional30 : List Nat :=
  [0x01e68b86, 0x01e6adaa, 0x01e891a1, 0x01e883ba,
   0x01e4b89f, 0x01e6b5a9, 0x01e5bebd, 0x01e69882,
   0x01e5a28a, 0x01e6938b, 0x01e8a6bd, 0x01e8b2aa,
   0x01e685b0, 0x01e7b9b3, 0x01e6b1aa, 0x01e6858c,
   0x01e9a6ae, 0x01e8abbe, 0x01e5a79c, 0x01e8aabc,
   0x01e58587, 0x01e58aa3, 0x01e8aaa3, 0x01e88080,
   0x01e6988f, 0x01e8baba, 0x01e79b88, 0x01e9a88e,
   0x01e596ac, 0x01e6baaa, 0x01e58fa2, 0x01e79ba7,
   0x01e68ab9, 0x01e682b6, 0x01e8abae, 0x01e588ae,
   0x01e9a795, 0x01e7ba9c, 0x01e6829f, 0x01e69198,
   0x01e989ba, 0x01e693b2, 0x01e9a097, 0x01e5b9bb,
   0x01e69f84, 0x01e683a0, 0x01e68598, 0x01e4bdb3,
   0x01e4bb87, 0x01e88798, 0x01e7aaa9, 0x01e6bb8c,
   0x01e58a8d, 0x01e79ea7, 0x01e5a0a1, 0x01e6bd91,
   0x01e894a5, 0x01e7bda9, 0x01e99c8d, 0x01e69288,
   0x01e8838e, 0x01e892bc, 0x01e6bfb1, 0x01e58086]

/-- Entries 1984 to 2047 of `chinese_traditional` (include/cardano/bip39_dictionary.hpp:2132-4180): 捅 … 歇 -/
def chineseTraditional31 : List Nat :=
  [0x01e68d85, 0x01e6b998, 0x01e7a08d, 0x01e99c9e,
   0x01e982b5, 0x01e89084, 0x01e7988b, 0x01e6b7ae,
   0x01e98182, 0x01e7868a, 0x01e7b39e, 0x01e78398,
   0x01e5aebf, 0x01e6aa94, 0x01e68888, 0x01e9a781,
   0x01e5ab82, 0x01e8a395, 0x01e5be99, 0x01e7aead,
   0x01e68d90, 0x01e885b8, 0x01e69290, 0x01e69bac,
   0x01e8bea8, 0x01e6aebf, 0x01e893ae, 0x01e694a4,
   0x01e694aa, 0x01e986ac, 0x01e5b18f, 0x01e796ab,
   0x01e59380, 0x01e894a1, 0x01e5a0b5, 0x01e6b2ab,
   0x01e79aba, 0x01e69aa2, 0x01e7968a, 0x01e996a3,
   0x01e8908a, 0x01e695b2, 0x01e8bd84, 0x01e989a4,
   0x01e79795, 0x01e5a3a9, 0x01e5b7b7, 0x01e9a493,
   0x01e7a68d, 0x01e4b898, 0x01e78e84, 0x01e6ba9c,
   0x01e69bb0, 0x01e9828f, 0x01e5bdad, 0x01e59897,
   0x01e58dbf, 0x01e5a6a8, 0x01e88987, 0x01e5909e,
   0x01e99f8b, 0x01e680a8, 0x01e79fae, 0x01e6ad87]

/-- The table `chinese_traditional` (include/cardano/bip39_dictionary.hpp:2132-4180). -/
def chineseTraditional : List Nat :=
  chineseTraditional0 ++ (chineseTraditional1 ++ (chineseTraditional2 ++ (chineseTraditional3 ++ (chineseTraditional4 ++ (chineseTraditional5 ++ (chineseTraditional6 ++ (chineseTraditional7 ++ (chineseTraditional8 ++ (chineseTraditional9 ++ (chineseTraditional10 ++ (chineseTraditional11 ++ (chineseTraditional12 ++ (chineseTraditional13 ++ (chineseTraditional14 ++ (chineseTraditional15 ++ (chineseTraditional16 ++ (chineseTraditional17 ++ (chineseTraditional18 ++ (chineseTraditional19 ++ (chineseTraditional20 ++ (chineseTraditional21 ++ (chineseTraditional22 ++ (chineseTraditional23 ++ (chineseTraditional24 ++ (chineseTraditional25 ++ (chineseTraditional26 ++ (chineseTraditional27 ++ (chineseTraditional28 ++ (chineseTraditional29 ++ (chineseTraditional30 ++ (chineseTraditional31)))))))))))))))))))))))))))))))

end Cardano.Bip39
