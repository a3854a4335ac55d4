/-! Generated from include/cardano/bip39_dictionary.hpp:17668-19716 (the table `portuguese`).
Each word is written as one number: the byte 1 followed by the bytes of the word. -/

namespace Cardano.Bip39

/-- Entries 0 to 63 of `portuguese` (include/cardano/bip39_dictionary.hpp:17668-19716): abacate … afinador -/
def portuguese0 : List Nat :=
  [0x0161626163617465, 0x0161626169786f, 0x016162616c6172, 0x01616261746572,
   0x01616264757a6972, 0x016162656c6861, 0x0161626572746f, 0x01616269736d6f,
   0x0161626f746f6172, 0x01616272616e676572, 0x016162726576696172, 0x0161627269676172,
   0x016162727570746f, 0x01616273696e746f, 0x016162736f6c75746f, 0x016162737572646f,
   0x01616275747265, 0x016163616261646f, 0x016163616c6d6172, 0x016163616d706172,
   0x016163616e686172, 0x01616361736f, 0x0161636569746172, 0x016163656c65726172,
   0x016163656e6172, 0x0161636572766f, 0x0161636573736172, 0x01616365746f6e61,
   0x0161636861746172, 0x0161636964657a, 0x016163696d61, 0x016163696f6e61646f,
   0x0161636972726172, 0x0161636c616d6172, 0x0161636c697665, 0x0161636f6c68696461,
   0x0161636f6d6f646172, 0x0161636f706c6172, 0x0161636f72646172, 0x016163756d756c6172,
   0x016163757361646f72, 0x0161646170746172, 0x016164656761, 0x016164656e74726f,
   0x0161646570746f, 0x0161646571756172, 0x0161646572656e7465, 0x016164657369766f,
   0x016164657573, 0x01616469616e7465, 0x016164697469766f, 0x0161646a657469766f,
   0x0161646a756e746f, 0x0161646d69726172, 0x0161646f726172, 0x016164717569726972,
   0x01616475626f, 0x016164766572736f, 0x016164766f6761646f, 0x016165726f6e617665,
   0x0161666173746172, 0x01616665726972, 0x016166657469766f, 0x016166696e61646f72]

/-- Entries 64 to 127 of `portuguese` (include/cardano/bip39_dictionary.hpp:17668-19716): afivelar … amoroso -/
def portuguese1 : List Nat :=
  [0x0161666976656c6172, 0x0161666c69746f, 0x0161666c75656e7465, 0x016166726f6e746172,
   0x0161676163686172, 0x0161676172726172, 0x0161676173616c686f, 0x016167656e63696172,
   0x016167696c697a6172, 0x016167696f7461, 0x016167697461646f, 0x0161676f7261,
   0x0161677261646172, 0x0161677265737465, 0x0161677275706172, 0x016167756172646172,
   0x016167756c6861, 0x01616a6f656c686172, 0x01616a75646172, 0x01616a7573746172,
   0x01616c616d656461, 0x01616c61726d65, 0x01616c617374726172, 0x01616c6176616e6361,
   0x01616c626572677565, 0x01616c62696e6f, 0x01616c6361747261, 0x01616c64656961,
   0x01616c656372696d, 0x01616c6567726961, 0x01616c6572746172, 0x01616c66616365,
   0x01616c66696e657465, 0x01616c67756d, 0x01616c6865696f, 0x01616c696172,
   0x01616c6963617465, 0x01616c69656e6172, 0x01616c696e686172, 0x01616c6976696172,
   0x01616c6d6f66616461, 0x01616c6f636172, 0x01616c7069737465, 0x01616c7465726172,
   0x01616c746974756465, 0x01616c7563696e6172, 0x01616c75676172, 0x01616c756e6f,
   0x01616c757369766f, 0x01616c766f, 0x01616d6163696172, 0x01616d61646f72,
   0x01616d6172656c6f, 0x01616d6173736172, 0x01616d626173, 0x01616d6269656e7465,
   0x01616d65697861, 0x01616d656e697a6172, 0x01616d69646f, 0x01616d6973746f736f,
   0x01616d697a616465, 0x01616d6f6c61646f72, 0x01616d6f6e746f6172, 0x01616d6f726f736f]

/-- Entries 128 to 191 of `portuguese` (include/cardano/bip39_dictionary.hpp:17668-19716): amostra … assador -/
def portuguese2 : List Nat :=
  [0x01616d6f73747261, 0x01616d7061726172, 0x01616d706c696172, 0x01616d706f6c61,
   0x01616e616772616d61, 0x01616e616c69736172, 0x01616e617271756961, 0x01616e61746f6d6961,
   0x01616e6461696d65, 0x01616e656c, 0x01616e65786f, 0x01616e67756c6172,
   0x01616e696d6172, 0x01616e6a6f, 0x01616e6f6d616c6961, 0x01616e6f7461646f,
   0x01616e73696f736f, 0x01616e746572696f72, 0x01616e756964616465, 0x01616e756e63696172,
   0x01616e7a6f6c, 0x016170616761646f72, 0x016170616c706172, 0x016170616e6861646f,
   0x01617065676f, 0x016170656c69646f, 0x016170657274616461, 0x01617065736172,
   0x0161706574697465, 0x01617069746f, 0x0161706c6175736f, 0x0161706c6963616461,
   0x0161706f696f, 0x0161706f6e746172, 0x0161706f737461, 0x01617072656e64697a,
   0x016170726f766172, 0x0161717565636572, 0x016172616d65, 0x016172616e6861,
   0x016172617261, 0x01617263616461, 0x01617264656e7465, 0x016172656961,
   0x016172656a6172, 0x016172656e69746f, 0x01617265737461, 0x01617267696c6f736f,
   0x016172676f6c61, 0x0161726d61, 0x016172717569766f, 0x016172726169616c,
   0x016172726562617465, 0x016172726973636172, 0x016172726f6261, 0x01617272756d6172,
   0x01617273656e616c, 0x01617274657269616c, 0x0161727469676f, 0x016172766f7265646f,
   0x01617366616c746172, 0x016173696c61646f, 0x0161737069726172, 0x0161737361646f72]

/-- Entries 192 to 255 of `portuguese` (include/cardano/bip39_dictionary.hpp:17668-19716): assinar … baronesa -/
def portuguese3 : List Nat :=
  [0x01617373696e6172, 0x016173736f616c686f, 0x01617373756e746f, 0x0161737472616c,
   0x016174616361646f, 0x0161746164757261, 0x016174616c686f, 0x016174617265666172,
   0x016174656172, 0x016174656e646572, 0x0161746572726f, 0x0161746575,
   0x016174696e676972, 0x016174697261646f72, 0x01617469766f, 0x0161746f6c6569726f,
   0x0161747261636172, 0x01617472657669646f, 0x01617472697a, 0x01617475616c,
   0x016174756d, 0x0161756469746f72, 0x0161756d656e746172, 0x0161757261,
   0x016175726f7261, 0x0161757469736d6f, 0x016175746f726961, 0x01617574756172,
   0x016176616c696172, 0x016176616e7465, 0x01617661726961, 0x016176656e74616c,
   0x0161766573736f, 0x0161766961646f72, 0x01617669736172, 0x016176756c736f,
   0x016178696c61, 0x01617a61726172, 0x01617a65646f, 0x01617a65697465,
   0x01617a756c656a6f, 0x016261626172, 0x016261626f7361, 0x01626163616c686175,
   0x01626163686172656c, 0x016261636961, 0x016261676167656d, 0x01626169616e6f,
   0x016261696c6172, 0x016261696f6e657461, 0x0162616972726f, 0x016261697869737461,
   0x0162616a756c6172, 0x0162616c656961, 0x0162616c697a61, 0x0162616c7361,
   0x0162616e616c, 0x0162616e6465697261, 0x0162616e686f, 0x0162616e6972,
   0x0162616e7175657465, 0x0162617261746f, 0x016261726261646f, 0x016261726f6e657361]

/-- Entries 256 to 319 of `portuguese` (include/cardano/bip39_dictionary.hpp:17668-19716): barraca … bonita -/
def portuguese4 : List Nat :=
  [0x0162617272616361, 0x01626172756c686f, 0x016261736561646f, 0x0162617374616e7465,
   0x01626174617461, 0x0162617465646f72, 0x01626174696461, 0x016261746f6d,
   0x0162617475636172, 0x016261756e696c6861, 0x016265626572, 0x016265696a6f,
   0x0162656972616461, 0x016265697365626f6c, 0x0162656c64616465, 0x0162656c657a61,
   0x0162656c6761, 0x0162656c6973636172, 0x0162656e6469746f, 0x0162656e67616c61,
   0x0162656e7a6572, 0x01626572696d626175, 0x016265726c696e6461, 0x01626572726f,
   0x016265736f75726f, 0x01626578696761, 0x0162657a6572726f, 0x016269636f,
   0x0162696375646f, 0x016269656e616c, 0x016269666f63616c, 0x016269667572636172,
   0x016269676f726e61, 0x0162696c68657465, 0x0162696d6573747265, 0x0162696d6f746f72,
   0x0162696f6c6f676961, 0x0162696f6d626f, 0x0162696f7366657261, 0x016269706f6c6172,
   0x0162697272656e746f, 0x01626973636f69746f, 0x016269736e65746f, 0x01626973706f,
   0x01626973736578746f, 0x016269746f6c61, 0x0162697a6172726f, 0x01626c696e6461646f,
   0x01626c6f636f, 0x01626c6f7175656172, 0x01626f61746f, 0x01626f626167656d,
   0x01626f6361646f, 0x01626f63656a6f, 0x01626f636865636861, 0x01626f69636f746172,
   0x01626f6c616461, 0x01626f6c6574696d, 0x01626f6c6861, 0x01626f6c6f,
   0x01626f6d626569726f, 0x01626f6e6465, 0x01626f6e65636f, 0x01626f6e697461]

/-- Entries 320 to 383 of `portuguese` (include/cardano/bip39_dictionary.hpp:17668-19716): borbulha … cantar -/
def portuguese5 : List Nat :=
  [0x01626f7262756c6861, 0x01626f726461, 0x01626f7265616c, 0x01626f727261636861,
   0x01626f76696e6f, 0x01626f786561646f72, 0x016272616e636f, 0x016272617361,
   0x0162726176657a61, 0x0162726575, 0x016272696761, 0x016272696c686f,
   0x016272696e636172, 0x0162726f61, 0x0162726f6368757261, 0x0162726f6e7a656172,
   0x0162726f746f, 0x01627275786f, 0x016275636861, 0x0162756469736d6f,
   0x016275666172, 0x0162756c65, 0x0162757261636f, 0x016275736361,
   0x01627573746f, 0x0162757a696e61, 0x01636162616e61, 0x01636162656c6f,
   0x01636162696465, 0x016361626f, 0x016361627269746f, 0x016361636175,
   0x016361636574616461, 0x01636163686f72726f, 0x0163616369717565, 0x01636164617374726f,
   0x016361646561646f, 0x01636166657a616c, 0x0163616961717565, 0x0163616970697261,
   0x01636169786f7465, 0x0163616a61646f, 0x0163616a75, 0x0163616c616672696f,
   0x0163616c63756c6172, 0x0163616c6465697261, 0x0163616c6962726172, 0x0163616c6d616e7465,
   0x0163616c6f7461, 0x0163616d616461, 0x0163616d6269737461, 0x0163616d697361,
   0x0163616d6f6d696c61, 0x0163616d70616e6861, 0x0163616d75666c6172, 0x0163616e617669616c,
   0x0163616e63656c6172, 0x0163616e657461, 0x0163616e67757275, 0x0163616e686f746f,
   0x0163616e6976657465, 0x0163616e6f61, 0x0163616e7361646f, 0x0163616e746172]

/-- Entries 384 to 447 of `portuguese` (include/cardano/bip39_dictionary.hpp:17668-19716): canudo … cicatriz -/
def portuguese6 : List Nat :=
  [0x0163616e75646f, 0x016361706163686f, 0x01636170656c61, 0x01636170696e6172,
   0x016361706f746172, 0x01636170726963686f, 0x016361707461646f72, 0x01636170757a,
   0x0163617261636f6c, 0x01636172626f6e6f, 0x016361726465616c, 0x01636172656361,
   0x01636172696d626172, 0x016361726e6569726f, 0x0163617270657465, 0x016361727265697261,
   0x0163617274617a, 0x0163617276616c686f, 0x0163617361636f, 0x016361736361,
   0x0163617365627265, 0x0163617374656c6f, 0x01636173756c6f, 0x016361746172617461,
   0x0163617469766172, 0x016361756c65, 0x016361757361646f72, 0x0163617574656c6172,
   0x01636176616c6f, 0x0163617665726e61, 0x016365626f6c61, 0x01636564696c6861,
   0x016365676f6e6861, 0x0163656c6562726172, 0x0163656c756c6172, 0x0163656e6f757261,
   0x0163656e736f, 0x0163656e7465696f, 0x01636572636172, 0x016365727261646f,
   0x01636572746569726f, 0x0163657276656a61, 0x01636574696d, 0x01636576616461,
   0x01636861636f7461, 0x016368616c65697261, 0x016368616d61646f, 0x0163686170616461,
   0x01636861726d65, 0x0163686174696365, 0x016368617665, 0x016368656665,
   0x0163686567616461, 0x0163686569726f, 0x01636865717565, 0x01636869636f7465,
   0x01636869667265, 0x016368696e656c6f, 0x0163686f63616c686f, 0x0163686f766572,
   0x016368756d626f, 0x01636875746172, 0x016368757661, 0x01636963617472697a]

/-- Entries 448 to 511 of `portuguese` (include/cardano/bip39_dictionary.hpp:17668-19716): ciclone … corporal -/
def portuguese7 : List Nat :=
  [0x016369636c6f6e65, 0x01636964616465, 0x016369647265697261, 0x016369656e7465,
   0x01636967616e61, 0x0163696d656e746f, 0x0163696e746f, 0x0163696e7a61,
   0x01636972616e6461, 0x01636972637569746f, 0x016369727572676961, 0x016369746172,
   0x01636c6172657a61, 0x01636c65726f, 0x01636c69636172, 0x01636c6f6e65,
   0x01636c756265, 0x01636f61646f, 0x01636f61676972, 0x01636f62616961,
   0x01636f626572746f72, 0x01636f62726172, 0x01636f63616461, 0x01636f656c686f,
   0x01636f656e74726f, 0x01636f65736f, 0x01636f67756d656c6f, 0x01636f69626972,
   0x01636f696661, 0x01636f696f7465, 0x01636f6c6172, 0x01636f6c65697261,
   0x01636f6c686572, 0x01636f6c69646972, 0x01636f6c6d656961, 0x01636f6c6f6e6f,
   0x01636f6c756e61, 0x01636f6d616e646f, 0x01636f6d62696e6172, 0x01636f6d656e746172,
   0x01636f6d6974697661, 0x01636f6d6f766572, 0x01636f6d706c65786f, 0x01636f6d756d,
   0x01636f6e636861, 0x01636f6e646f72, 0x01636f6e6563746172, 0x01636f6e6675736f,
   0x01636f6e67656c6172, 0x01636f6e6865636572, 0x01636f6e6a75676172, 0x01636f6e73756d6972,
   0x01636f6e747261746f, 0x01636f6e76697465, 0x01636f6f7065726172, 0x01636f706569726f,
   0x01636f706961646f72, 0x01636f706f, 0x01636f71756574656c, 0x01636f726167656d,
   0x01636f726469616c, 0x01636f726e657461, 0x01636f726f6e6861, 0x01636f72706f72616c]

/-- Entries 512 to 575 of `portuguese` (include/cardano/bip39_dictionary.hpp:17668-19716): correio … deitado -/
def portuguese8 : List Nat :=
  [0x01636f727265696f, 0x01636f7274656a6f, 0x01636f72756a61, 0x01636f72766f,
   0x01636f7373656e6f, 0x01636f7374656c61, 0x01636f746f6e657465, 0x01636f75726f,
   0x01636f757665, 0x01636f76696c, 0x01636f7a696e6861, 0x0163726174657261,
   0x01637261766f, 0x01637265636865, 0x01637265646f72, 0x016372656d65,
   0x0163726572, 0x0163726573706f, 0x01637269616461, 0x016372696d696e616c,
   0x016372696f756c6f, 0x016372697365, 0x016372697469636172, 0x0163726f737461,
   0x0163727561, 0x016372757a6569726f, 0x01637562616e6f, 0x016375656361,
   0x016375696461646f, 0x0163756a6f, 0x0163756c61747261, 0x0163756c6d696e6172,
   0x0163756c706172, 0x0163756c74757261, 0x0163756d70726972, 0x0163756e6861646f,
   0x0163757069646f, 0x01637572617469766f, 0x0163757272616c, 0x01637572736172,
   0x01637572746f, 0x01637573706972, 0x0163757374656172, 0x01637574656c6f,
   0x0164616d6173636f, 0x016461746172, 0x0164656261746572, 0x0164656269746172,
   0x016465626f636865, 0x01646562756c686172, 0x01646563616c717565, 0x01646563696d616c,
   0x016465636c697665, 0x016465636f7465, 0x016465637265746172, 0x01646564616c,
   0x01646564696361646f, 0x01646564757a6972, 0x01646566657361, 0x01646566756d6172,
   0x01646567656c6f, 0x01646567726175, 0x016465677573746172, 0x016465697461646f]

/-- Entries 576 to 639 of `portuguese` (include/cardano/bip39_dictionary.hpp:17668-19716): deixar … dolorido -/
def portuguese9 : List Nat :=
  [0x01646569786172, 0x0164656c61746f72, 0x0164656c656761646f, 0x0164656c696e656172,
   0x0164656c6f6e6761, 0x0164656d616e6461, 0x0164656d69746972, 0x0164656d6f6c69646f,
   0x0164656e7469737461, 0x01646570656e61646f, 0x01646570696c6172, 0x016465706f6973,
   0x016465707265737361, 0x0164657075726172, 0x01646572697661, 0x0164657272616d6172,
   0x016465736166696f, 0x01646573626f746172, 0x0164657363616e736f, 0x01646573656e686f,
   0x01646573666961646f, 0x016465736761737465, 0x01646573696775616c, 0x016465736c697a65,
   0x016465736d616d6172, 0x016465736f7661, 0x0164657370657361, 0x016465737461717565,
   0x0164657376696172, 0x01646574616c686172, 0x01646574656e746f72, 0x016465746f6e6172,
   0x016465747269746f, 0x016465757361, 0x016465766572, 0x0164657669646f,
   0x016465766f7461646f, 0x0164657a656e61, 0x016469616772616d61, 0x016469616c65746f,
   0x01646964617461, 0x0164696675736f, 0x0164696769746172, 0x0164696c617461646f,
   0x0164696c75656e7465, 0x0164696d696e756972, 0x0164696e6173746961, 0x0164696e686569726f,
   0x0164696f63657365, 0x0164697265746f, 0x016469736372657461, 0x016469736661726365,
   0x016469737061726f, 0x016469737175657465, 0x016469737369706172, 0x0164697374616e7465,
   0x0164697461646f72, 0x01646975726e6f, 0x016469766572736f, 0x0164697669736f72,
   0x01646976756c676172, 0x0164697a6572, 0x01646f627261646f72, 0x01646f6c6f7269646f]

/-- Entries 640 to 703 of `portuguese` (include/cardano/bip39_dictionary.hpp:17668-19716): domador … enguia -/
def portuguese10 : List Nat :=
  [0x01646f6d61646f72, 0x01646f6d696e61646f, 0x01646f6e617469766f, 0x01646f6e7a656c61,
   0x01646f726d656e7465, 0x01646f7273616c, 0x01646f736167656d, 0x01646f757261646f,
   0x01646f75746f72, 0x016472656e6167656d, 0x01647269626c65, 0x0164726f6761726961,
   0x016475656c6172, 0x016475656e6465, 0x01647565746f, 0x016475706c6f,
   0x0164757175657361, 0x01647572616e7465, 0x0164757669646f736f, 0x0165636c6f646972,
   0x0165636f6172, 0x0165636f6c6f676961, 0x016564696669636172, 0x0165646974616c,
   0x016564756361646f, 0x0165666569746f, 0x016566657469766172, 0x01656a65746172,
   0x01656c61626f726172, 0x01656c65676572, 0x01656c6569746f72, 0x01656c656e636f,
   0x01656c657661646f72, 0x01656c696d696e6172, 0x01656c6f67696172, 0x01656d626172676f,
   0x01656d626f6c61646f, 0x01656d6272756c686f, 0x01656d62757469646f, 0x01656d656e6461,
   0x01656d6572676972, 0x01656d6973736f72, 0x01656d7061746961, 0x01656d70656e686f,
   0x01656d70696e61646f, 0x01656d706f6c676172, 0x01656d707265676f, 0x01656d707572726172,
   0x01656d756c61646f72, 0x01656e6361697865, 0x01656e63656e61646f, 0x01656e6368656e7465,
   0x01656e636f6e74726f, 0x01656e646575736172, 0x01656e646f73736172, 0x01656e666169786172,
   0x01656e6665697465, 0x01656e66696d, 0x01656e67616a61646f, 0x01656e67656e686f,
   0x01656e676c6f626172, 0x01656e676f6d61646f, 0x01656e677261786172, 0x01656e67756961]

/-- Entries 704 to 767 of `portuguese` (include/cardano/bip39_dictionary.hpp:17668-19716): enjoar … eventual -/
def portuguese11 : List Nat :=
  [0x01656e6a6f6172, 0x01656e6c61746172, 0x01656e7175616e746f, 0x01656e7261697a6172,
   0x01656e726f6c61646f, 0x01656e7275676172, 0x01656e7361696f, 0x01656e7365616461,
   0x01656e73696e6f, 0x01656e736f7061646f, 0x01656e74616e746f, 0x01656e746561646f,
   0x01656e746964616465, 0x01656e746f72746172, 0x01656e7472616461, 0x01656e74756c686f,
   0x01656e766572676172, 0x01656e766961646f, 0x01656e766f6c766572, 0x01656e78616d65,
   0x01656e786572746f, 0x01656e786f667265, 0x01656e7875746f, 0x016570696465726d65,
   0x0165717569706172, 0x01657265746f, 0x016572677569646f, 0x01657272617461,
   0x0165727661, 0x01657276696c6861, 0x01657362616e6a6172, 0x01657362656c746f,
   0x01657363616d61, 0x016573636f6c61, 0x0165736372697461, 0x01657363757461,
   0x01657366696e6765, 0x016573666f6c6172, 0x016573667265676172, 0x01657366756d61646f,
   0x0165736772696d61, 0x0165736d616c7465, 0x01657370616e746f, 0x01657370656c686f,
   0x01657370696761, 0x016573706f6e6a61, 0x016573707265697461, 0x01657370756d6172,
   0x016573717565726461, 0x01657374616361, 0x0165737465697261, 0x0165737469636172,
   0x016573746f6661646f, 0x0165737472656c61, 0x0165737475646f, 0x01657376617a696172,
   0x016574616e6f6c, 0x016574697175657461, 0x016575666f726961, 0x016575726f706575,
   0x0165766163756172, 0x01657661706f726172, 0x016576617369766f, 0x016576656e7475616c]

/-- Entries 768 to 831 of `portuguese` (include/cardano/bip39_dictionary.hpp:17668-19716): evidente … fiapo -/
def portuguese12 : List Nat :=
  [0x0165766964656e7465, 0x0165766f6c756972, 0x016578616765726f, 0x016578616c6172,
   0x016578616d696e6172, 0x01657861746f, 0x016578617573746f, 0x016578636573736f,
   0x0165786369746172, 0x016578636c616d6172, 0x016578656375746172, 0x016578656d706c6f,
   0x01657869626972, 0x0165786967656e7465, 0x0165786f6e65726172, 0x01657870616e646972,
   0x01657870656c6972, 0x0165787069726172, 0x016578706c616e6172, 0x016578706f73746f,
   0x01657870726573736f, 0x01657870756c736172, 0x0165787465726e6f, 0x01657874696e746f,
   0x016578747261746f, 0x016661627269636172, 0x01666162756c6f736f, 0x01666163657461,
   0x0166616369616c, 0x0166616461, 0x01666164696761, 0x016661697861,
   0x0166616c6172, 0x0166616c7461, 0x0166616d696c696172, 0x0166616e64616e676f,
   0x0166616e6661727261, 0x0166616e746f636865, 0x016661726461646f, 0x01666172656c6f,
   0x01666172696e6861, 0x016661726f6661, 0x016661727061, 0x0166617274757261,
   0x016661746961, 0x016661746f72, 0x016661766f72697461, 0x01666178696e61,
   0x0166617a656e6461, 0x016665636861646f, 0x016665696a6f616461, 0x0166656972616e7465,
   0x0166656c696e6f, 0x0166656d696e696e6f, 0x0166656e6461, 0x0166656e6f,
   0x0166657261, 0x016665726961646f, 0x01666572727567656d, 0x01666572766572,
   0x0166657374656a6172, 0x01666574616c, 0x0166657564616c, 0x01666961706f]

/-- Entries 832 to 895 of `portuguese` (include/cardano/bip39_dictionary.hpp:17668-19716): fibrose … gaiola -/
def portuguese13 : List Nat :=
  [0x01666962726f7365, 0x016669636172, 0x01666963686569726f, 0x01666967757261646f,
   0x0166696c65697261, 0x0166696c686f, 0x0166696c6d65, 0x0166696c74726172,
   0x016669726d657a61, 0x0166697367616461, 0x0166697373757261, 0x0166697461,
   0x01666976656c61, 0x0166697861646f72, 0x016669786f, 0x01666c61636964657a,
   0x01666c616d696e676f, 0x01666c616e656c61, 0x01666c656368616461, 0x01666c6f7261,
   0x01666c7574756172, 0x01666c75786f, 0x01666f63616c, 0x01666f63696e686f,
   0x01666f666f636172, 0x01666f676f, 0x01666f6775657465, 0x01666f696365,
   0x01666f6c6761646f, 0x01666f6c6865746f, 0x01666f726a6172, 0x01666f726d696761,
   0x01666f726e6f, 0x01666f727465, 0x01666f73636f, 0x01666f737361,
   0x0166726167617461, 0x016672616c6461, 0x016672616e676f, 0x0166726173636f,
   0x016672617465726e6f, 0x01667265697261, 0x016672656e7465, 0x01667265746172,
   0x01667269657a61, 0x01667269736f, 0x0166726974757261, 0x0166726f6e6861,
   0x016672757374726172, 0x016672757465697261, 0x016675676972, 0x0166756c616e6f,
   0x0166756c6967656d, 0x0166756e646172, 0x0166756e676f, 0x0166756e696c,
   0x0166757261646f72, 0x01667572696f736f, 0x0166757465626f6c, 0x01676162617269746f,
   0x01676162696e657465, 0x016761646f, 0x0167616961746f, 0x016761696f6c61]

/-- Entries 896 to 959 of `portuguese` (include/cardano/bip39_dictionary.hpp:17668-19716): gaivota … grelhar -/
def portuguese14 : List Nat :=
  [0x01676169766f7461, 0x0167616c656761, 0x0167616c686f, 0x0167616c696e6861,
   0x0167616c6f636861, 0x0167616e686172, 0x016761726167656d, 0x01676172666f,
   0x0167617267616c6f, 0x01676172696d706f, 0x016761726f757061, 0x0167617272616661,
   0x016761736f6475746f, 0x01676173746f, 0x0167617461, 0x01676174696c686f,
   0x01676176657461, 0x0167617a656c61, 0x0167656c61646f, 0x0167656c656961,
   0x0167656c6f, 0x0167656d616461, 0x0167656d6572, 0x0167656d69646f,
   0x0167656e65726f736f, 0x0167656e67697661, 0x0167656e69616c, 0x0167656e6f6d61,
   0x0167656e726f, 0x0167656f6c6f676961, 0x0167657261646f72, 0x016765726d696e6172,
   0x01676573736f, 0x01676573746f72, 0x0167696e61737461, 0x0167696e63616e61,
   0x0167696e6761646f, 0x01676972616661, 0x01676972696e6f, 0x01676c616369616c,
   0x01676c69636f7365, 0x01676c6f62616c, 0x01676c6f72696f736f, 0x01676f656c61,
   0x01676f69616261, 0x01676f6c6665, 0x01676f6c70656172, 0x01676f7264757261,
   0x01676f726a657461, 0x01676f72726f, 0x01676f73746f736f, 0x01676f7465697261,
   0x01676f7665726e6172, 0x0167726163656a6f, 0x016772616475616c, 0x0167726166697465,
   0x016772616c6861, 0x016772616d706f, 0x016772616e616461, 0x01677261747569746f,
   0x016772617665746f, 0x016772617861, 0x01677265676f, 0x016772656c686172]

/-- Entries 960 to 1023 of `portuguese` (include/cardano/bip39_dictionary.hpp:17668-19716): greve … implante -/
def portuguese15 : List Nat :=
  [0x016772657665, 0x016772696c6f, 0x0167726973616c686f, 0x016772697461726961,
   0x0167726f73736f, 0x0167726f746573636f, 0x016772756461646f, 0x016772756e6869646f,
   0x016772757461, 0x01677561636865, 0x0167756172616e69, 0x0167756178696e696d,
   0x016775657272656172, 0x016775696172, 0x016775696e63686f, 0x016775697361646f,
   0x0167756c61, 0x0167756c6f736f, 0x0167757275, 0x0168616269746172,
   0x016861726d6f6e6961, 0x016861737465, 0x016861766572, 0x0168656374617265,
   0x01686572646172, 0x0168657265736961, 0x0168657369746172, 0x01686961746f,
   0x0168696265726e6172, 0x016869647261746172, 0x016869656e61, 0x0168696e6f,
   0x0168697069736d6f, 0x016869706e6f7365, 0x016869706f74656361, 0x01686f6a65,
   0x01686f6c6f666f7465, 0x01686f6d656d, 0x01686f6e6573746f, 0x01686f6e7261646f,
   0x01686f726d6f6e616c, 0x01686f737065646172, 0x0168756d6f7261646f, 0x0169617465,
   0x016964656961, 0x0169646f736f, 0x0169676e6f7261646f, 0x01696772656a61,
   0x01696775616e61, 0x01696c65736f, 0x01696c6861, 0x01696c756469646f,
   0x01696c756d696e6172, 0x01696c757374726172, 0x01696d6167656d, 0x01696d65646961746f,
   0x01696d656e736f, 0x01696d65727369766f, 0x01696d696e656e7465, 0x01696d697461646f72,
   0x01696d6f7274616c, 0x01696d706163746f, 0x01696d7065646972, 0x01696d706c616e7465]

/-- Entries 1024 to 1087 of `portuguese` (include/cardano/bip39_dictionary.hpp:17668-19716): impor … jarro -/
def portuguese16 : List Nat :=
  [0x01696d706f72, 0x01696d7072656e7361, 0x01696d70756e65, 0x01696d756e697a6172,
   0x01696e616c61646f72, 0x01696e6170746f, 0x01696e617469766f, 0x01696e63656e736f,
   0x01696e63686172, 0x01696e6369646972, 0x01696e636c756972, 0x01696e636f6c6f72,
   0x01696e64656369736f, 0x01696e64697265746f, 0x01696e6475746f72, 0x01696e65666963617a,
   0x01696e6572656e7465, 0x01696e66616e74696c, 0x01696e666573746172, 0x01696e66696e69746f,
   0x01696e666c616d6172, 0x01696e666f726d616c, 0x01696e667261746f72, 0x01696e6765726972,
   0x01696e696269646f, 0x01696e696369616c, 0x01696e696d69676f, 0x01696e6a65746172,
   0x01696e6f63656e7465, 0x01696e6f646f726f, 0x01696e6f7661646f72, 0x01696e6f78,
   0x01696e71756965746f, 0x01696e73637269746f, 0x01696e7365746f, 0x01696e736973746972,
   0x01696e737065746f72, 0x01696e7374616c6172, 0x01696e73756c746f, 0x01696e746163746f,
   0x01696e74656772616c, 0x01696e74696d6172, 0x01696e746f6361646f, 0x01696e7472696761,
   0x01696e7661736f72, 0x01696e7665726e6f, 0x01696e766963746f, 0x01696e766f636172,
   0x01696f6775727465, 0x016972616e69616e6f, 0x0169726f6e697a6172, 0x0169727265616c,
   0x01697272697461646f, 0x0169736361, 0x016973656e746f, 0x0169736f6c61646f,
   0x01697371756569726f, 0x016974616c69616e6f, 0x016a616e6569726f, 0x016a616e67616461,
   0x016a616e7461, 0x016a61726172616361, 0x016a617264696d, 0x016a6172726f]

/-- Entries 1088 to 1151 of `portuguese` (include/cardano/bip39_dictionary.hpp:17668-19716): jasmim … leste -/
def portuguese17 : List Nat :=
  [0x016a61736d696d, 0x016a61746f, 0x016a6176616c69, 0x016a617a696461,
   0x016a656a756d, 0x016a6f616e696e6861, 0x016a6f656c68616461, 0x016a6f6761646f72,
   0x016a6f6961, 0x016a6f726e616c, 0x016a6f72726172, 0x016a6f76656d,
   0x016a756261, 0x016a75646575, 0x016a75646f6361, 0x016a75697a,
   0x016a756c6761646f72, 0x016a756c686f, 0x016a757261646f, 0x016a757269737461,
   0x016a75726f, 0x016a75737461, 0x016c61626172656461, 0x016c61626f72616c,
   0x016c61637265, 0x016c616374616e7465, 0x016c616472696c686f, 0x016c616761727461,
   0x016c61676f61, 0x016c616a65, 0x016c616d626572, 0x016c616d656e746172,
   0x016c616d696e6172, 0x016c616d70656a6f, 0x016c616e636865, 0x016c617069646172,
   0x016c6170736f, 0x016c6172616e6a61, 0x016c617265697261, 0x016c617267757261,
   0x016c6173616e6861, 0x016c617374726f, 0x016c61746572616c, 0x016c617469646f,
   0x016c6176616e6461, 0x016c61766f757261, 0x016c61767261646f72, 0x016c6178616e7465,
   0x016c617a6572, 0x016c65616c64616465, 0x016c65627265, 0x016c656761646f,
   0x016c6567656e646172, 0x016c656769737461, 0x016c6569676f, 0x016c65696c6f6172,
   0x016c656974757261, 0x016c656d6272657465, 0x016c656d65, 0x016c656e6861646f72,
   0x016c656e74696c6861, 0x016c656f61, 0x016c65736d61, 0x016c65737465]

/-- Entries 1152 to 1215 of `portuguese` (include/cardano/bip39_dictionary.hpp:17668-19716): letivo … manequim -/
def portuguese18 : List Nat :=
  [0x016c657469766f, 0x016c6574726569726f, 0x016c65766172, 0x016c6576657a61,
   0x016c657669746172, 0x016c69626572616c, 0x016c696269646f, 0x016c696465726172,
   0x016c69676172, 0x016c69676569726f, 0x016c696d69746172, 0x016c696d6f6569726f,
   0x016c696d7061646f72, 0x016c696e6461, 0x016c696e656172, 0x016c696e686167656d,
   0x016c6971756964657a, 0x016c6973746167656d, 0x016c6973757261, 0x016c69746f72616c,
   0x016c6976726f, 0x016c697861, 0x016c697865697261, 0x016c6f6361646f72,
   0x016c6f6375746f72, 0x016c6f6a69737461, 0x016c6f6d626f, 0x016c6f6e61,
   0x016c6f6e6765, 0x016c6f6e747261, 0x016c6f726465, 0x016c6f7461646f,
   0x016c6f7465726961, 0x016c6f7563757261, 0x016c6f757361, 0x016c6f75766172,
   0x016c756172, 0x016c75636964657a, 0x016c7563726f, 0x016c756e657461,
   0x016c7573747265, 0x016c757461646f72, 0x016c757661, 0x016d616361636f,
   0x016d6163657465, 0x016d61636861646f, 0x016d6163696f, 0x016d616465697261,
   0x016d616472696e6861, 0x016d61676e617461, 0x016d616772657a61, 0x016d61696f72,
   0x016d616973, 0x016d616c616e64726f, 0x016d616c6861, 0x016d616c6f7465,
   0x016d616c75636f, 0x016d616d696c6f, 0x016d616d6f6569726f, 0x016d616d757465,
   0x016d616e616461, 0x016d616e636861, 0x016d616e6461746f, 0x016d616e657175696d]

/-- Entries 1216 to 1279 of `portuguese` (include/cardano/bip39_dictionary.hpp:17668-19716): manhoso … minoria -/
def portuguese19 : List Nat :=
  [0x016d616e686f736f, 0x016d616e6976656c61, 0x016d616e6f62726172, 0x016d616e7361,
   0x016d616e746572, 0x016d616e7573656172, 0x016d61706561646f, 0x016d617175696e6172,
   0x016d61726361646f72, 0x016d617265736961, 0x016d617266696d, 0x016d617267656d,
   0x016d6172696e686f, 0x016d61726d697461, 0x016d61726f746f, 0x016d61727175697365,
   0x016d61727265636f, 0x016d617274656c6f, 0x016d6172756a6f, 0x016d6173636f7465,
   0x016d61736d6f727261, 0x016d6173736167656d, 0x016d61737469676172, 0x016d61746167616c,
   0x016d617465726e6f, 0x016d6174696e616c, 0x016d617475746172, 0x016d6178696c6172,
   0x016d6564616c6861, 0x016d6564696461, 0x016d6564757361, 0x016d656761666f6e65,
   0x016d65696761, 0x016d656c616e636961, 0x016d656c686f72, 0x016d656d62726f,
   0x016d656d6f7269616c, 0x016d656e696e6f, 0x016d656e6f73, 0x016d656e736167656d,
   0x016d656e74616c, 0x016d657265636572, 0x016d657267756c686f, 0x016d6573616461,
   0x016d6573636c6172, 0x016d65736d6f, 0x016d65737175697461, 0x016d6573747265,
   0x016d6574616465, 0x016d6574656f726f, 0x016d6574726167656d, 0x016d65786572,
   0x016d65786963616e6f, 0x016d6963726f, 0x016d6967616c6861, 0x016d6967726172,
   0x016d696c61677265, 0x016d696c656e6172, 0x016d696c686172, 0x016d696d61646f,
   0x016d696e65726172, 0x016d696e686f6361, 0x016d696e697374726f, 0x016d696e6f726961]

/-- Entries 1280 to 1343 of `portuguese` (include/cardano/bip39_dictionary.hpp:17668-19716): miolo … ninar -/
def portuguese20 : List Nat :=
  [0x016d696f6c6f, 0x016d6972616e7465, 0x016d697274696c6f, 0x016d69737475726172,
   0x016d6f636964616465, 0x016d6f6465726e6f, 0x016d6f64756c6172, 0x016d6f656461,
   0x016d6f6572, 0x016d6f696e686f, 0x016d6f697461, 0x016d6f6c64757261,
   0x016d6f6c657a61, 0x016d6f6c686f, 0x016d6f6c696e657465, 0x016d6f6c7573636f,
   0x016d6f6e74616e6861, 0x016d6f7175656361, 0x016d6f72616e676f, 0x016d6f726365676f,
   0x016d6f72646f6d6f, 0x016d6f72656e61, 0x016d6f736169636f, 0x016d6f737175657465,
   0x016d6f737461726461, 0x016d6f74656c, 0x016d6f74696d, 0x016d6f746f,
   0x016d6f7472697a, 0x016d756461, 0x016d7569746f, 0x016d756c617461,
   0x016d756c686572, 0x016d756c746172, 0x016d756e6469616c, 0x016d756e69646f,
   0x016d7572616c6861, 0x016d757263686f, 0x016d757363756c6172, 0x016d75736575,
   0x016d75736963616c, 0x016e6163696f6e616c, 0x016e616461646f72, 0x016e616a61,
   0x016e616d6f726f, 0x016e6172696e61, 0x016e61727261646f, 0x016e6173636572,
   0x016e6174697661, 0x016e61747572657a61, 0x016e6176616c6861, 0x016e617665676172,
   0x016e6176696f, 0x016e65626c696e61, 0x016e6562756c6f736f, 0x016e65676174697661,
   0x016e65676f63696172, 0x016e65677269746f, 0x016e6572766f736f, 0x016e657461,
   0x016e657572616c, 0x016e657661736361, 0x016e65766f6569726f, 0x016e696e6172]

/-- Entries 1344 to 1407 of `portuguese` (include/cardano/bip39_dictionary.hpp:17668-19716): ninho … orgulho -/
def portuguese21 : List Nat :=
  [0x016e696e686f, 0x016e69746964657a, 0x016e6976656c6172, 0x016e6f6272657a61,
   0x016e6f697465, 0x016e6f697661, 0x016e6f6d656172, 0x016e6f6d696e616c,
   0x016e6f726465737465, 0x016e6f7274656172, 0x016e6f746172, 0x016e6f746963696172,
   0x016e6f7475726e6f, 0x016e6f76656c6f, 0x016e6f76696c686f, 0x016e6f766f,
   0x016e75626c61646f, 0x016e7564657a, 0x016e756d6572616c, 0x016e75706369616c,
   0x016e7574726972, 0x016e7576656d, 0x016f6263656361646f, 0x016f62656465636572,
   0x016f626a657469766f, 0x016f6272696761646f, 0x016f62736375726f, 0x016f62737465747261,
   0x016f62746572, 0x016f627475726172, 0x016f636964656e7465, 0x016f63696f736f,
   0x016f636f72726572, 0x016f63756c69737461, 0x016f63757061646f, 0x016f666567616e7465,
   0x016f66656e73697661, 0x016f666572656e6461, 0x016f666963696e61, 0x016f6675736361646f,
   0x016f67697661, 0x016f6c61726961, 0x016f6c656f736f, 0x016f6c686172,
   0x016f6c697665697261, 0x016f6d62726f, 0x016f6d656c657465, 0x016f6d6973736f,
   0x016f6d69746972, 0x016f6e64756c61646f, 0x016f6e65726f736f, 0x016f6e74656d,
   0x016f7063696f6e616c, 0x016f70657261646f72, 0x016f706f6e656e7465, 0x016f706f7274756e6f,
   0x016f706f73746f, 0x016f726172, 0x016f726269746172, 0x016f7264656d,
   0x016f7264696e616c, 0x016f7266616e61746f, 0x016f726761736d6f, 0x016f7267756c686f]

/-- Entries 1408 to 1471 of `portuguese` (include/cardano/bip39_dictionary.hpp:17668-19716): oriental … pegada -/
def portuguese22 : List Nat :=
  [0x016f7269656e74616c, 0x016f726967656d, 0x016f7269756e646f, 0x016f726c61,
   0x016f72746f646f786f, 0x016f7276616c686f, 0x016f7363696c6172, 0x016f7373616461,
   0x016f73736f, 0x016f7374656e746172, 0x016f74696d69736d6f, 0x016f757361646961,
   0x016f75746f6e6f, 0x016f75747562726f, 0x016f757669646f, 0x016f76656c6861,
   0x016f76756c6172, 0x016f7869646172, 0x016f786967656e6172, 0x0170616361746f,
   0x0170616369656e7465, 0x017061636f7465, 0x0170616374756172, 0x0170616461726961,
   0x0170616472696e686f, 0x017061676172, 0x017061676f6465, 0x017061696e656c,
   0x01706169726172, 0x01706169736167656d, 0x0170616c61767261, 0x0170616c6573747261,
   0x0170616c68657461, 0x0170616c69746f, 0x0170616c6d616461, 0x0170616c7069746172,
   0x0170616e63616461, 0x0170616e656c61, 0x0170616e666c65746f, 0x0170616e7175656361,
   0x0170616e74616e616c, 0x01706170616761696f, 0x01706170656c616461, 0x0170617069726f,
   0x017061726166696e61, 0x017061726369616c, 0x0170617264616c, 0x01706172656465,
   0x0170617274696461, 0x017061736d6f, 0x017061737361646f, 0x0170617374656c,
   0x01706174616d6172, 0x01706174656e7465, 0x01706174696e6172, 0x01706174726f6e6f,
   0x017061756c616461, 0x01706175736172, 0x01706563756c696172, 0x01706564616c6172,
   0x017065646573747265, 0x017065646961747261, 0x017065647261, 0x01706567616461]

/-- Entries 1472 to 1535 of `portuguese` (include/cardano/bip39_dictionary.hpp:17668-19716): peitoral … ponderar -/
def portuguese23 : List Nat :=
  [0x01706569746f72616c, 0x017065697865, 0x0170656c65, 0x0170656c6963616e6f,
   0x0170656e6361, 0x0170656e6475726172, 0x0170656e65697261, 0x0170656e686173636f,
   0x0170656e7361646f72, 0x0170656e7465, 0x017065726365626572, 0x01706572666569746f,
   0x0170657267756e7461, 0x0170657269746f, 0x017065726d69746972, 0x017065726e61,
   0x01706572706c65786f, 0x017065727369616e61, 0x0170657274656e6365, 0x01706572756361,
   0x017065736361646f, 0x017065737175697361, 0x01706573736f61, 0x017065746973636172,
   0x017069616461, 0x0170696361646f, 0x0170696564616465, 0x017069676d656e746f,
   0x0170696c6173747261, 0x0170696c6861646f, 0x0170696c6f746172, 0x0170696d656e7461,
   0x0170696e63656c, 0x0170696e6775696d, 0x0170696e6861, 0x0170696e6f7465,
   0x0170696e746172, 0x0170696f6e6569726f, 0x017069706f6361, 0x0170697175657465,
   0x01706972616e6861, 0x017069726573, 0x0170697275657461, 0x01706973636172,
   0x01706973746f6c61, 0x01706974616e6761, 0x01706976657465, 0x01706c616e7461,
   0x01706c617175657461, 0x01706c6174696e61, 0x01706c65626575, 0x01706c756d6167656d,
   0x01706c757669616c, 0x01706e6575, 0x01706f6461, 0x01706f65697261,
   0x01706f6574697361, 0x01706f6c6567616461, 0x01706f6c6963696172, 0x01706f6c75656e7465,
   0x01706f6c76696c686f, 0x01706f6d6172, 0x01706f6d6261, 0x01706f6e6465726172]

/-- Entries 1536 to 1599 of `portuguese` (include/cardano/bip39_dictionary.hpp:17668-19716): pontaria … radial -/
def portuguese24 : List Nat :=
  [0x01706f6e7461726961, 0x01706f70756c6f736f, 0x01706f727461, 0x01706f7373756972,
   0x01706f7374616c, 0x01706f7465, 0x01706f75706172, 0x01706f75736f,
   0x01706f766f6172, 0x017072616961, 0x017072616e636861, 0x01707261746f,
   0x017072617865, 0x017072656365, 0x017072656461646f72, 0x01707265666569746f,
   0x017072656d696172, 0x017072656e736172, 0x017072657061726172, 0x0170726573696c6861,
   0x01707265746578746f, 0x0170726576656e6972, 0x017072657a6172, 0x017072696d617461,
   0x017072696e63657361, 0x01707269736d61, 0x017072697661646f, 0x0170726f636573736f,
   0x0170726f6475746f, 0x0170726f66657461, 0x0170726f696269646f, 0x0170726f6a65746f,
   0x0170726f6d65746572, 0x0170726f7061676172, 0x0170726f7361, 0x0170726f7465746f72,
   0x0170726f7661646f72, 0x017075626c69636172, 0x01707564696d, 0x0170756c6172,
   0x0170756c6d6f6e6172, 0x0170756c7365697261, 0x0170756e68616c, 0x0170756e6972,
   0x01707570696c6f, 0x01707572657a61, 0x0170757861646f72, 0x01717561647261,
   0x017175616e746961, 0x0171756172746f, 0x017175617365, 0x0171756562726172,
   0x017175656461, 0x01717565696a6f, 0x017175656e7465, 0x017175657269646f,
   0x017175696d6f6e6f, 0x017175696e61, 0x017175696f73717565, 0x01726162616e616461,
   0x017261626973636f, 0x01726163686172, 0x01726163696f6e6172, 0x0172616469616c]

/-- Entries 1600 to 1663 of `portuguese` (include/cardano/bip39_dictionary.hpp:17668-19716): raiar … requerer -/
def portuguese25 : List Nat :=
  [0x017261696172, 0x017261696e6861, 0x017261696f, 0x017261697661,
   0x0172616a616461, 0x0172616c61646f, 0x0172616d616c, 0x0172616e676572,
   0x0172616e68757261, 0x017261706164757261, 0x01726170656c, 0x017261706964657a,
   0x017261706f7361, 0x0172617175657465, 0x017261726964616465, 0x01726173616e7465,
   0x0172617363756e686f, 0x01726173676172, 0x017261737061646f72, 0x017261737465697261,
   0x0172617375726172, 0x01726174617a616e61, 0x017261746f65697261, 0x017265616c657a61,
   0x017265616e696d6172, 0x01726561766572, 0x017265626169786172, 0x01726562656c6465,
   0x017265626f6c6172, 0x0172656361646f, 0x01726563656e7465, 0x017265636865696f,
   0x0172656369626f, 0x017265636f72646172, 0x017265637275746172, 0x01726563756172,
   0x0172656465, 0x01726564696d6972, 0x017265646f6e6461, 0x01726564757a696461,
   0x017265656e76696f, 0x01726566696e6172, 0x017265666c65746972, 0x017265666f676172,
   0x01726566726573636f, 0x017265667567696172, 0x01726567616c6961, 0x01726567696d65,
   0x017265677261, 0x017265696e61646f, 0x01726569746f72, 0x0172656a6569746172,
   0x0172656c617469766f, 0x0172656d61646f72, 0x0172656d656e646f, 0x0172656d6f72736f,
   0x0172656e6f7661646f, 0x0172657061726f, 0x01726570656c6972, 0x017265706c65746f,
   0x017265706f6c686f, 0x0172657072657361, 0x017265707564696172, 0x017265717565726572]

/-- Entries 1664 to 1727 of `portuguese` (include/cardano/bip39_dictionary.hpp:17668-19716): resenha … salgado -/
def portuguese26 : List Nat :=
  [0x01726573656e6861, 0x017265736672696172, 0x017265736761746172, 0x0172657369646972,
   0x017265736f6c766572, 0x01726573706569746f, 0x0172657373616361, 0x0172657374616e7465,
   0x01726573756d6972, 0x01726574616c686f, 0x017265746572, 0x0172657469726172,
   0x017265746f6d616461, 0x017265747261746172, 0x01726576656c6172, 0x0172657669736f72,
   0x017265766f6c7461, 0x0172696163686f, 0x0172696361, 0x017269676964657a,
   0x017269676f726f736f, 0x0172696d6172, 0x0172696e677565, 0x01726973616461,
   0x01726973636f, 0x017269736f6e686f, 0x01726f62616c6f, 0x01726f636865646f,
   0x01726f64616461, 0x01726f6465696f, 0x01726f646f766961, 0x01726f65646f72,
   0x01726f6c657461, 0x01726f6d616e6f, 0x01726f6e636172, 0x01726f7361646f,
   0x01726f7365697261, 0x01726f73746f, 0x01726f7461, 0x01726f746569726f,
   0x01726f74696e61, 0x01726f74756c6172, 0x01726f75636f, 0x01726f757061,
   0x01726f786f, 0x01727562726f, 0x0172756769646f, 0x017275676f736f,
   0x01727569766f, 0x0172756d6f, 0x017275706573747265, 0x01727573736f,
   0x017361626f72, 0x01736163696172, 0x017361636f6c61, 0x0173616375646972,
   0x01736164696f, 0x01736166697261, 0x0173616761, 0x0173616772616461,
   0x0173616962726f, 0x0173616c616461, 0x0173616c6569726f, 0x0173616c6761646f]

/-- Entries 1728 to 1791 of `portuguese` (include/cardano/bip39_dictionary.hpp:17668-19716): saliva … soja -/
def portuguese27 : List Nat :=
  [0x0173616c697661, 0x0173616c7069636172, 0x0173616c7369636861, 0x0173616c746172,
   0x0173616c7661646f72, 0x0173616d626172, 0x0173616d75726169, 0x0173616e6172,
   0x0173616e666f6e61, 0x0173616e677565, 0x0173616e6964616465, 0x0173617061746f,
   0x017361726461, 0x0173617267656e746f, 0x017361726a657461, 0x0173617475726172,
   0x0173617564616465, 0x017361786f666f6e65, 0x0173617a6f6e616c, 0x017365636172,
   0x01736563756c6172, 0x0173656461, 0x01736564656e746f, 0x017365646961646f,
   0x017365646f736f, 0x0173656475746f72, 0x017365676d656e746f, 0x017365677265646f,
   0x01736567756e646f, 0x017365697661, 0x0173656c65746f, 0x0173656c766167656d,
   0x0173656d616e616c, 0x0173656d656e7465, 0x0173656e61646f72, 0x0173656e686f72,
   0x0173656e7375616c, 0x0173656e7461646f, 0x01736570617261646f, 0x01736572656961,
   0x01736572696e6761, 0x017365727261, 0x01736572766f, 0x01736574656d62726f,
   0x017365746f72, 0x01736967696c6f, 0x0173696c6875657461, 0x0173696c69636f6e65,
   0x0173696d6574726961, 0x0173696d7061746961, 0x0173696d756c6172, 0x0173696e616c,
   0x0173696e6365726f, 0x0173696e67756c6172, 0x0173696e6f707365, 0x0173696e746f6e6961,
   0x01736972656e65, 0x0173697269, 0x017369747561646f, 0x01736f626572616e6f,
   0x01736f627261, 0x01736f636f72726f, 0x01736f67726f, 0x01736f6a61]

/-- Entries 1792 to 1855 of `portuguese` (include/cardano/bip39_dictionary.hpp:17668-19716): solda … tarraxa -/
def portuguese28 : List Nat :=
  [0x01736f6c6461, 0x01736f6c6574726172, 0x01736f6c746569726f, 0x01736f6d6272696f,
   0x01736f6e617461, 0x01736f6e646172, 0x01736f6e65676172, 0x01736f6e6861646f72,
   0x01736f6e6f, 0x01736f7072616e6f, 0x01736f7175657465, 0x01736f72726972,
   0x01736f727465696f, 0x01736f737365676f, 0x01736f7461717565, 0x01736f746572726172,
   0x01736f7661646f, 0x01736f7a696e686f, 0x0173756176697a6172, 0x01737562696461,
   0x017375626d6572736f, 0x01737562736f6c6f, 0x017375627472616972, 0x01737563617461,
   0x017375636573736f, 0x017375636f, 0x0173756465737465, 0x0173756669786f,
   0x0173756761646f72, 0x0173756765726972, 0x0173756a6569746f, 0x0173756c6661746f,
   0x0173756d6972, 0x0173756f72, 0x017375706572696f72, 0x017375706c69636172,
   0x017375706f73746f, 0x0173757072696d6972, 0x0173757264696e61, 0x017375726669737461,
   0x017375727072657361, 0x017375727265616c, 0x01737572746972, 0x017375737069726f,
   0x0173757374656e746f, 0x01746162656c61, 0x017461626c657465, 0x0174616275616461,
   0x01746163686f, 0x017461676172656c61, 0x0174616c686572, 0x0174616c6f,
   0x0174616c76657a, 0x0174616d616e686f, 0x0174616d626f72696d, 0x0174616d7061,
   0x0174616e67656e7465, 0x0174616e746f, 0x017461706172, 0x01746170696f6361,
   0x0174617264696f, 0x01746172656661, 0x017461726a61, 0x0174617272617861]

/-- Entries 1856 to 1919 of `portuguese` (include/cardano/bip39_dictionary.hpp:17668-19716): tatuagem … tratador -/
def portuguese29 : List Nat :=
  [0x01746174756167656d, 0x0174617572696e6f, 0x01746178617469766f, 0x0174617869737461,
   0x017465617472616c, 0x017465636572, 0x0174656369646f, 0x017465636c61646f,
   0x01746564696f736f, 0x0174656961, 0x017465696d6172, 0x0174656c65666f6e65,
   0x0174656c6861646f, 0x0174656d7065726f, 0x0174656e656e7465, 0x0174656e736f72,
   0x0174656e746172, 0x017465726d616c, 0x017465726e6f, 0x0174657272656e6f,
   0x0174657365, 0x017465736f757261, 0x017465737461646f, 0x017465746f,
   0x0174657874757261, 0x0174657875676f, 0x017469617261, 0x01746967656c61,
   0x0174696a6f6c6f, 0x0174696d62726172, 0x0174696d6964657a, 0x0174696e6769646f,
   0x0174696e746569726f, 0x017469726167656d, 0x01746974756c6172, 0x01746f616c6861,
   0x01746f636861, 0x01746f6c65726172, 0x01746f6c696365, 0x01746f6d616461,
   0x01746f6d696c686f, 0x01746f6e656c, 0x01746f6e74757261, 0x01746f70657465,
   0x01746f7261, 0x01746f726369646f, 0x01746f726e65696f, 0x01746f72717565,
   0x01746f7272616461, 0x01746f72746f, 0x01746f73746172, 0x01746f756361,
   0x01746f757065697261, 0x01746f78696e61, 0x0174726162616c686f, 0x0174726163656a6172,
   0x017472616475746f72, 0x017472616665676172, 0x017472616a65746f, 0x017472616d61,
   0x017472616e636172, 0x01747261706f, 0x01747261736569726f, 0x017472617461646f72]

/-- Entries 1920 to 1983 of `portuguese` (include/cardano/bip39_dictionary.hpp:17668-19716): travar … veleiro -/
def portuguese30 : List Nat :=
  [0x01747261766172, 0x01747265696e6f, 0x017472656d6572, 0x017472657069646172,
   0x01747265766f, 0x017472696167656d, 0x01747269626f, 0x017472696369636c6f,
   0x0174726964656e7465, 0x017472696c6f676961, 0x017472696e64616465, 0x01747269706c6f,
   0x017472697475726172, 0x01747269756e66616c, 0x0174726f636172, 0x0174726f6d62657461,
   0x0174726f7661, 0x017472756e666f, 0x01747275717565, 0x01747562756c6172,
   0x01747563616e6f, 0x017475646f, 0x0174756c697061, 0x0174757069,
   0x01747572626f, 0x017475726d61, 0x017475727175657361, 0x01747574656c6172,
   0x017475746f7269616c, 0x017569766172, 0x01756d6269676f, 0x01756e6861,
   0x01756e6964616465, 0x01756e69666f726d65, 0x0175726f6c6f676961, 0x017572736f,
   0x01757274696761, 0x017572756275, 0x01757361646f, 0x017573696e61,
   0x017573756672756972, 0x01766163696e61, 0x01766164696172, 0x0176616761726f736f,
   0x01766169646f736f, 0x0176616c61, 0x0176616c656e7465, 0x0176616c6964616465,
   0x0176616c6f726573, 0x0176616e746167656d, 0x01766171756569726f, 0x01766172616e6461,
   0x01766172657461, 0x01766172726572, 0x0176617363756c6172, 0x01766173696c6861,
   0x01766173736f757261, 0x0176617a6172, 0x0176617a696f, 0x01766561646f,
   0x017665646172, 0x0176656765746172, 0x0176656963756c6172, 0x0176656c6569726f]

/-- Entries 1984 to 2047 of `portuguese` (include/cardano/bip39_dictionary.hpp:17668-19716): velhice … zumbido -/
def portuguese31 : List Nat :=
  [0x0176656c68696365, 0x0176656c75646f, 0x0176656e6365646f72, 0x0176656e646176616c,
   0x0176656e65726172, 0x0176656e747265, 0x0176657262616c, 0x0176657264616465,
   0x017665726561646f72, 0x01766572676f6e6861, 0x017665726d656c686f, 0x017665726e697a,
   0x01766572736172, 0x0176657274656e7465, 0x017665737061, 0x017665737469646f,
   0x017665746f7269616c, 0x017669616475746f, 0x0176696167656d, 0x017669616a6172,
   0x0176696174757261, 0x017669627261646f72, 0x0176696465697261, 0x017669647261726961,
   0x017669656c61, 0x0176696761, 0x01766967656e7465, 0x01766967696172,
   0x017669676f726172, 0x0176696c6172656a6f, 0x0176696e636f, 0x0176696e68657461,
   0x0176696e696c, 0x0176696f6c657461, 0x01766972616461, 0x0176697274756465,
   0x0176697369746172, 0x01766973746f, 0x0176697472616c, 0x017669766569726f,
   0x0176697a696e686f, 0x01766f61646f72, 0x01766f6172, 0x01766f67616c,
   0x01766f6c616e7465, 0x01766f6c6569626f6c, 0x01766f6c746167656d, 0x01766f6c756d6f736f,
   0x01766f6e74616465, 0x0176756c746f, 0x01767576757a656c61, 0x0178616472657a,
   0x017861726f7065, 0x017865717565, 0x0178657265746172, 0x01786572696665,
   0x0178696e676172, 0x017a616e6761646f, 0x017a6172706172, 0x017a656275,
   0x017a656c61646f72, 0x017a6f6d626172, 0x017a6f6f6c6f676961, 0x017a756d6269646f]

/-- The table `portuguese` (include/cardano/bip39_dictionary.hpp:17668-19716). -/
def portuguese : List Nat :=
  portuguese0 ++ (portuguese1 ++ (portuguese2 ++ (portuguese3 ++ (portuguese4 ++ (portuguese5 ++ (portuguese6 ++ (portuguese7 ++ (portuguese8 ++ (portuguese9 ++ (portuguese10 ++ (portuguese11 ++ (portuguese12 ++ (portuguese13 ++ (portuguese14 ++ (portuguese15 ++ (portuguese16 ++ (portuguese17 ++ (portuguese18 ++ (portuguese19 ++ (portuguese20 ++ (portuguese21 ++ (portuguese22 ++ (portuguese23 ++ (portuguese24 ++ (portuguese25 ++ (portuguese26 ++ (portuguese27 ++ (portuguese28 ++ (portuguese29 ++ (portuguese30 ++ (portuguese31)))))))))))))))))))))))))))))))

end Cardano.Bip39
